/-!
# Tables of the Boys function

Copy of the tables `boys_shortgrid` (skel/simint/boys/boys_shortgrid.c:14-382) and `boys_longfac`
(skel/simint/boys/boys_longfac.h:15-49), written by tools/boys_table.py.  The literals are copied
exactly; the C compiler rounds each of them to a double.
-/

set_option autoImplicit false

namespace Simint

/-- Rows of `boys_shortgrid`.  A row has 32 groups of 35 digits, one group for each entry: one digit
before the decimal point and 34 digits after it. -/
def boysGridRows : List Nat := [
  10000000000000000000000000000000000_03333333333333333330000000000000000_02000000000000000000000000000000000_01428571428571428570000000000000000_01111111111111111110000000000000000_00909090909090909091000000000000000_00769230769230769231000000000000000_00666666666666666667000000000000000_00588235294117647059000000000000000_00526315789473684211000000000000000_00476190476190476190000000000000000_00434782608695652174000000000000000_00400000000000000000000000000000000_00370370370370370370000000000000000_00344827586206896552000000000000000_00322580645161290323000000000000000_00303030303030303030000000000000000_00285714285714285714000000000000000_00270270270270270270000000000000000_00256410256410256410000000000000000_00243902439024390244000000000000000_00232558139534883721000000000000000_00222222222222222222000000000000000_00212765957446808511000000000000000_00204081632653061224000000000000000_00196078431372549020000000000000000_00188679245283018868000000000000000_00181818181818181818000000000000000_00175438596491228070000000000000000_00169491525423728814000000000000000_00163934426229508197000000000000000_00158730158730158730000000000000000,
  09676433126355918310000000000000000_03140294729981612890000000000000000_01862550047926214730000000000000000_01321880296357389480000000000000000_01023939470710653190000000000000000_00835405280181414827000000000000000_00705419508179836834000000000000000_00610397129891415521000000000000000_00537913840058185382000000000000000_00480805503147778837000000000000000_00434651897241010828000000000000000_00396578308508158282000000000000000_00364634576640223775000000000000000_00337451178229993164000000000000000_00314038159251098418000000000000000_00293662189611291984000000000000000_00275768487952278917000000000000000_00259929610328042599000000000000000_00245810905609476138000000000000000_00233146635955106875000000000000000_00221723109447862008000000000000000_00211366535013732894000000000000000_00201934126154593462000000000000000_00193307482985550342000000000000000_00185387599806351692000000000000000_00178091050758185923000000000000000_00171347041539431657000000000000000_00165095106151410486000000000000000_00159283289839905094000000000000000_00153866702574973225000000000000000_00148806357819122757000000000000000_00144068233034462217000000000000000,
  09371500287979786840000000000000000_02960481892999920620000000000000000_01735345370549858210000000000000000_01223548304923681210000000000000000_00943826509214874721000000000000000_00767827630385134765000000000000000_00646991008641659577000000000000000_00558938953904389795000000000000000_00491941944465070840000000000000000_00439263812815964213000000000000000_00396762281808753649000000000000000_00361750968010020104000000000000000_00332411833626609533000000000000000_00307470774713549343000000000000000_00286008466215034188000000000000000_00267344973640432192000000000000000_00250966630183948392000000000000000_00236478163226195912000000000000000_00223570455342595805000000000000000_00211998292240565479000000000000000_00201564666505587781000000000000000_00192109489873201069000000000000000_00183501334419568451000000000000000_00175631295251904271000000000000000_00168408365149205401000000000000000_00161755903828115116000000000000000_00155608911135130851000000000000000_00149911898455291228000000000000000_00144617210652997339000000000000000_00139683691102574388000000000000000_00135075610680175811000000000000000_00130761801777264708000000000000000,
  09083928770327505360000000000000000_02792910939183877820000000000000000_01617584351224091360000000000000000_01132899248838796870000000000000000_00870187558423999078000000000000000_00705843031664688398000000000000000_00593485235823989523000000000000000_00511876431491141905000000000000000_00449940442583249850000000000000000_00401342195163447976000000000000000_00362199168813888128000000000000000_00330000563790786712000000000000000_00303051267284859535000000000000000_00280165792173849510000000000000000_00260490303127930181000000000000000_00243394306487994296000000000000000_00228402157184407513000000000000000_00215148300447115443000000000000000_00203347181386436388000000000000000_00192772507468279517000000000000000_00183242640742870866000000000000000_00174610106067544756000000000000000_00166753923478743103000000000000000_00159573916210434934000000000000000_00152986425122105417000000000000000_00146921040276644611000000000000000_00141318078819494196000000000000000_00136126617693356240000000000000000_00131302943862357586000000000000000_00126809322228672886000000000000000_00122613007790869345000000000000000_00118685447376419012000000000000000,
  08812540349399244960000000000000000_02636674861303564940000000000000000_01508530154442877270000000000000000_01049312889822491650000000000000000_00802487210501310663000000000000000_00648980542694253695000000000000000_00544481886600497050000000000000000_00468830081812585806000000000000000_00411563458540492596000000000000000_00366722918539976414000000000000000_00330668739878948582000000000000000_00301053846376909014000000000000000_00276297507890642893000000000000000_00255296546137099154000000000000000_00237257856681605194000000000000000_00221596729262697024000000000000000_00207872683484018425000000000000000_00195747618270268762000000000000000_00184957723878767068000000000000000_00175294153947485621000000000000000_00166589429494432756000000000000000_00158707686144187500000000000000000_00151537554804586864000000000000000_00144986882312519817000000000000000_00138978760415047967000000000000000_00133448499976196706000000000000000_00128341298037048729000000000000000_00123610419508987068000000000000000_00119215765797369699000000000000000_00115122737617099804000000000000000_00111301323815619301000000000000000_00107725365495480468000000000000000,
  08556243918921488030000000000000000_02490937321795153800000000000000000_01407505368259127150000000000000000_00972220244169301519000000000000000_00740235112058776398000000000000000_00596809411402653349000000000000000_00499596928302852604000000000000000_00429453470810749614000000000000000_00376495465034909974000000000000000_00335116308467135329000000000000000_00301903263749237020000000000000000_00274661941607643174000000000000000_00251918059849458768000000000000000_00232644899110134958000000000000000_00216105678847309638000000000000000_00201758089445645278000000000000000_00189194175688669391000000000000000_00178101200599755680000000000000000_00168235423865114560000000000000000_00159404085882904469000000000000000_00151452752306940054000000000000000_00144256247458207964000000000000000_00137712043576608199000000000000000_00131735363821034731000000000000000_00126255502462298103000000000000000_00121213023526272820000000000000000_00116557602713579603000000000000000_00112246346693384704000000000000000_00108242471009824472000000000000000_00104514250433660664000000000000000_00101034178459644965000000000000000_00097778288912008643700000000000000,
  08314028712140212210000000000000000_02354926959333289910000000000000000_01313887097549671160000000000000000_00901099272340076235000000000000000_00682982121200224433000000000000000_00548935608218129640000000000000000_00458479441215968095000000000000000_00393430312389434092000000000000000_00344448604084372543000000000000000_00306258257078390750000000000000000_00275658769624299941000000000000000_00250598167641695365000000000000000_00229701245682274232000000000000000_00212012317597159570000000000000000_00196846845152536726000000000000000_00183701790402750597000000000000000_00172199284620836816000000000000000_00162050026289458826000000000000000_00153028799325662142000000000000000_00144957678424362432000000000000000_00137694248008225435000000000000000_00131123172830815415000000000000000_00125150058987332114000000000000000_00119696911241400686000000000000000_00114698722837973272000000000000000_00110100881767021656000000000000000_00105857174314866793000000000000000_00101928231456396414000000000000000_00098280307634615369300000000000000_00094884311860676437100000000000000_00091715032366371219700000000000000_00088750511173650063100000000000000,
  08084958069125834650000000000000000_02227932165151242500000000000000000_01227102469671165980000000000000000_00835470936029810523000000000000000_00630316795924698939000000000000000_00504998661005853788000000000000000_00420808737964497515000000000000000_00360471825445980393000000000000000_00315160245554007680000000000000000_00279907954645739576000000000000000_00251712928824969137000000000000000_00228656048150183382000000000000000_00209454335385801877000000000000000_00193218104807822699000000000000000_00179311279926512668000000000000000_00167267199967694455000000000000000_00156735829346023549000000000000000_00147449521789058558000000000000000_00139200160502110283000000000000000_00131823500474275242000000000000000_00125188200416170915000000000000000_00119187985106365979000000000000000_00113735944042601406000000000000000_00108760317144977222000000000000000_00104201334214167358000000000000000_00100008813271503847000000000000000_00096140313523286480500000000000000_00092559699157205943100000000000000_00089236011237308373900000000000000_00086142573294630118900000000000000_00083256276049344191900000000000000_00080557000782786111700000000000000,
  07868163704617204300000000000000000_02109296289653117740000000000000000_01146624517366960810000000000000000_00774895591039117593000000000000000_00581862185063504523000000000000000_00464668765249577995000000000000000_00386291735358213771000000000000000_00330314324052851944000000000000000_00288390762262852032000000000000000_00255845823310167891000000000000000_00229863126075608765000000000000000_00208647504009730089000000000000000_00191001844407235081000000000000000_00176097793130413199000000000000000_00163344233343087788000000000000000_00152308203610831209000000000000000_00142665419227219724000000000000000_00134168245828771868000000000000000_00126624351771749667000000000000000_00119882108989076096000000000000000_00113820380876094889000000000000000_00108341234217296587000000000000000_00103364643857210842000000000000000_00098824582751419995700000000000000_00094666092590327427800000000000000_00090843059846142529100000000000000_00087316506863158169500000000000000_00084053264109479419900000000000000_00081024928030720112700000000000000_00078207035361769069200000000000000_00075578403232599479700000000000000_00073120597510220217800000000000000,
  07662840435206961400000000000000000_01998413243222761270000000000000000_01071968406812384830000000000000000_00718969687031073898000000000000000_00537272895450847871000000000000000_00427644145362022065000000000000000_00354660556431250888000000000000000_00302717020111261349000000000000000_00263921502368293954000000000000000_00233871634919447830000000000000000_00209924703368620916000000000000000_00190401207408360062000000000000000_00174183984992383498000000000000000_00160501681890886855000000000000000_00148804896471085538000000000000000_00138691889030827488000000000000000_00129862201416478336000000000000000_00122086694076552212000000000000000_00115187608485186827000000000000000_00109024953636623041000000000000000_00103486996901281938000000000000000_00098483486414760199800000000000000_00093940732460387484000000000000000_00089797979617469812200000000000000_00086004691452827809100000000000000_00082518490990317515900000000000000_00079303579500112328600000000000000_00076329508944423498000000000000000_00073570219187389595700000000000000_00071003275708453241100000000000000_00068609260773750059900000000000000_00066371283218201407600000000000000,
  07468241328124270250000000000000000_01894723458204923520000000000000000_01002687981450173670000000000000000_00667322747768222568000000000000000_00496232411331567381000000000000000_00393648645134841608000000000000000_00325670342384417239000000000000000_00277460019641500443000000000000000_00241552941454041711000000000000000_00213802796502142938000000000000000_00191729360913146307000000000000000_00173761083730824617000000000000000_00158855257047271492000000000000000_00146293507233682040000000000000000_00135565141797495930000000000000000_00126297350206479381000000000000000_00118211722343218805000000000000000_00111096212805898677000000000000000_00104786518246015238000000000000000_00099153381694070297200000000000000_00094093737177159187400000000000000_00089524406274551733400000000000000_00085377529045650660600000000000000_00081597197669928254600000000000000_00078136939386102374200000000000000_00074957809102296559400000000000000_00072026926251350657500000000000000_00069316339803580815900000000000000_00066802138741260828600000000000000_00064463748268722008300000000000000_00062283368070087637900000000000000_00060245520280461348700000000000000,
  07283673237030934940000000000000000_01797710181840972460000000000000000_00938372594791873564000000000000000_00619614607717532857000000000000000_00458450644109970211000000000000000_00362429527276789258000000000000000_00299097255938130136000000000000000_00254342495552225563000000000000000_00221102998319358140000000000000000_00195472788385587659000000000000000_00175123701066077271000000000000000_00158584947912194160000000000000000_00144883165908940978000000000000000_00133349232155785873000000000000000_00123508377829737741000000000000000_00115014600037090431000000000000000_00107609892804094468000000000000000_00101098011615600867000000000000000_00095327077075106740200000000000000_00090177733999160843000000000000000_00085554904084762428300000000000000_00081381922952029103200000000000000_00077596295434752683000000000000000_00074146571628670546500000000000000_00070990013439418251900000000000000_00068090827977590369000000000000000_00065418813580142402200000000000000_00062948310348523537800000000000000_00060657378267272293000000000000000_00058527147388056894300000000000000_00056541299506618741200000000000000_00054685651328612582200000000000000,
  07108492693138488010000000000000000_01706896072506861270000000000000000_00878644207666067847000000000000000_00575532883003465944000000000000000_00423661692459266935000000000000000_00333755463754742271000000000000000_00274736659241726675000000000000000_00233181021258510751000000000000000_00202405499898183460000000000000000_00178729741311290773000000000000000_00159967902413543217000000000000000_00144743263150994416000000000000000_00132147055562854421000000000000000_00121555945812224817000000000000000_00112528507420020461000000000000000_00104743581691071829000000000000000_00097962047208835719800000000000000_00092002266153982411000000000000000_00086723831778068091100000000000000_00082016523611041001700000000000000_00077792625711907542200000000000000_00073981472944245110200000000000000_00070525507283549489100000000000000_00067377378599044184600000000000000_00064497781263773212800000000000000_00061853817834527692200000000000000_00059417746016204723600000000000000_00057166008223678910800000000000000_00055078472158466302600000000000000_00053137830796065950600000000000000_00051329124102445882400000000000000_00049639354636324107800000000000000,
  06942102122600063370000000000000000_01621840073946129750000000000000000_00823154727499332003000000000000000_00534790656598666917000000000000000_00391621794557900918000000000000000_00307414700261916241000000000000000_00252401450977289471000000000000000_00213808050909475806000000000000000_00185308782039235020000000000000000_00163435140125718967000000000000000_00146134512326359362000000000000000_00132118010966700217000000000000000_00120537046882299600000000000000000_00110810862198986141000000000000000_00102528980397115302000000000000000_00095393269683160659000000000000000_00089182088399174768200000000000000_00083727302627938969500000000000000_00078899100629899193300000000000000_00074595689602363123400000000000000_00070736140058475300500000000000000_00067255312329754341600000000000000_00064100192245888715200000000000000_00061227200278794674400000000000000_00058600185678162948800000000000000_00056188910726868638600000000000000_00053967891050067129600000000000000_00051915498197473783500000000000000_00050013257892666177000000000000000_00048245295977633098600000000000000_00046597897053933380000000000000000_00045059149980696210200000000000000,
  06783946363552793780000000000000000_01542134544334546070000000000000000_00771583569138419090000000000000000_00497124359384296672000000000000000_00362107455812147118000000000000000_00283213379604735463000000000000000_00231920548655723330000000000000000_00196070533252978045000000000000000_00169674414063787825000000000000000_00149462642738688661000000000000000_00133507347363935642000000000000000_00120601662580922752000000000000000_00109953071408985184000000000000000_00101020409217344584000000000000000_00093421931947228216300000000000000_00086880852519126251000000000000000_00081191710241731789400000000000000_00076198856628958671300000000000000_00071782265213388830300000000000000_00067847919099757840400000000000000_00064321144812318216400000000000000_00061141892103207894600000000000000_00058261328936383820900000000000000_00055639343829002560400000000000000_00053242685909662703100000000000000_00051043560770502743400000000000000_00049018557099848265200000000000000_00047147816741390458500000000000000_00045414386200146587900000000000000_00043803704997246692300000000000000_00042303198364817884900000000000000_00040901950299223645600000000000000,
  06633509458403348060000000000000000_01467402618973016590000000000000000_00723635418478250493000000000000000_00462291830302318058000000000000000_00334913736877309372000000000000000_00260974010137162020000000000000000_00213137503341494644000000000000000_00179828647318377360000000000000000_00155376036097120705000000000000000_00136697004055584563000000000000000_00121980491857269472000000000000000_00110096242506120207000000000000000_00100303992052155488000000000000000_00092099399939862971000000000000000_00085127398964000642900000000000000_00079130989490573451800000000000000_00073919690907826239000000000000000_00069349399491322532800000000000000_00065309126903996786400000000000000_00061712031321194269400000000000000_00058489206680759405700000000000000_00055585290808945781900000000000000_00052955301100123444300000000000000_00050562316007085567800000000000000_00048375750282907799100000000000000_00046370054126061288300000000000000_00044523719648275805100000000000000_00042818513291439793100000000000000_00041238876514963444100000000000000_00039771453289539341400000000000000_00038404714199507618200000000000000_00037128654895222140600000000000000,
  06490311698978617850000000000000000_01397295787197519930000000000000000_00679038181764376780000000000000000_00430070540273540568000000000000000_00309852688115071840000000000000000_00240534066590341398000000000000000_00195909235171000405000000000000000_00164954649148890994000000000000000_00142298299152128381000000000000000_00125033095512383873000000000000000_00111457385871481097000000000000000_00100512476048296548000000000000000_00091506802863833287100000000000000_00083970278640399404100000000000000_00077572607295071820700000000000000_00072075134878290223300000000000000_00067301250400138386500000000000000_00063117526018128959500000000000000_00059421322089987342500000000000000_00056132417932180496000000000000000_00053187224815151644000000000000000_00050534699210832286700000000000000_00048133401912260701400000000000000_00045949345657867961500000000000000_00043954395616637532700000000000000_00042125064146464067600000000000000_00040441591100972925200000000000000_00038887233876565922700000000000000_00037447713520178644900000000000000_00036110778344883961400000000000000_00034865857000499887100000000000000_00033703780338730946700000000000000,
  06353906904021528620000000000000000_01331491665733582980000000000000000_00637541104903941889000000000000000_00400255965880106748000000000000000_00286751917833353157000000000000000_00221744711756715268000000000000000_00180104879057800425000000000000000_00151331819771782064000000000000000_00130335898838054252000000000000000_00114375011682228172000000000000000_00101849994539702576000000000000000_00091769013178355176500000000000000_00083485900757300752100000000000000_00076562434825050676300000000000000_00070691323455594634800000000000000_00065650923436734678300000000000000_00061277466473949566200000000000000_00057447397974408583400000000000000_00054065790757927622900000000000000_00051058534563522219500000000000000_00048366943367652958100000000000000_00045943952219536699700000000000000_00043751383797862231400000000000000_00041757950110721738100000000000000_00039937769022522113700000000000000_00038269247522422667000000000000000_00036734230328296915500000000000000_00035317343197761769900000000000000_00034005480985162012000000000000000_00032787404596143583200000000000000_00031653420777977914000000000000000_00030595125567443015400000000000000,
  06223879910213150070000000000000000_01269691952221467970000000000000000_00598913048457927367000000000000000_00372660100020492070000000000000000_00265453282757660862000000000000000_00204469628500856216000000000000000_00165604730914875833000000000000000_00138853505465977900000000000000000_00119392694381611979000000000000000_00104635256186538405000000000000000_00093078051480101198700000000000000_00083791721907294385900000000000000_00076172422681084859000000000000000_00069811579114237803300000000000000_00064423264963487585400000000000000_00059801611590354053400000000000000_00055794743634752853400000000000000_00052288238258605216300000000000000_00049194293565365885600000000000000_00046444438806297884900000000000000_00043984508674931147100000000000000_00041771103737864346700000000000000_00039769049586750423800000000000000_00037949541441084357600000000000000_00036288768198638729000000000000000_00034766877643731204800000000000000_00033367188226229461500000000000000_00032075581603971133000000000000000_00030880029445151925900000000000000_00029770221154942887700000000000000_00028737268312712497800000000000000_00027773468016554717100000000000000,
  06099844259460112810000000000000000_01211620544008884810000000000000000_00562940905210606291000000000000000_00347110087849126560000000000000000_00245811690188825104000000000000000_00188583952492914580000000000000000_00152299285577818383000000000000000_00127422242180339068000000000000000_00109380905389140919000000000000000_00095733999839222394800000000000000_00085068369662861835400000000000000_00076513044919407372800000000000000_00069503642347373433400000000000000_00063659175383680344500000000000000_00058713563982373362000000000000000_00054475569279599202900000000000000_00050804330379269674900000000000000_00047593871128828617100000000000000_00044762972969118702800000000000000_00042248370429221441800000000000000_00040000066977180448700000000000000_00037978040483696808000000000000000_00036149881203319004400000000000000_00034489068927106492300000000000000_00032973696670435424600000000000000_00031585511743417179200000000000000_00030309185970506739600000000000000_00029131753739607018800000000000000_00028042174592640922400000000000000_00027030989356363697700000000000000_00026090047315554641600000000000000_00025212287900653318400000000000000,
  05981440066613041010000000000000000_01157021808561728520000000000000000_00529428148329764663000000000000000_00323446977320674099000000000000000_00227694002219647944000000000000000_00173973296902676144000000000000000_00140088358390827667000000000000000_00116948956678658188000000000000000_00100220379453436476000000000000000_00087598404585573291600000000000000_00077754213689941405500000000000000_00069871413780660649300000000000000_00063422421147267003600000000000000_00058051924078887042700000000000000_00053512279440955808500000000000000_00049625817855397881800000000000000_00046261880287801854300000000000000_00043322304282833568000000000000000_00040731954383261989900000000000000_00038432369953641677100000000000000_00036377398956474621800000000000000_00034530131212333143800000000000000_00032860702441049565700000000000000_00031344694370275884500000000000000_00029961950759209913600000000000000_00028695688708789711900000000000000_00027531822945537096400000000000000_00026458445936834798000000000000000_00025465423539946742900000000000000_00024544077352709356700000000000000_00023686932860931281300000000000000_00022887518037670310000000000000000,
  05868332053088469410000000000000000_01105658992990154840000000000000000_00498193499152534620000000000000000_00301524574579250952000000000000000_00210978033220223229000000000000000_00160532861060045229000000000000000_00128880283126352003000000000000000_00107352237645894510000000000000000_00091837924323475843600000000000000_00080162007373635771100000000000000_00071074727992681083000000000000000_00063810715551543724200000000000000_00057876708370401560700000000000000_00052941292078623789600000000000000_00048773953236434099400000000000000_00045209609839707090700000000000000_00042127052976452550100000000000000_00039435348974551202600000000000000_00037064983709398331000000000000000_00034961932075695034700000000000000_00033083587719592202900000000000000_00031395908088919337400000000000000_00029871372688979144000000000000000_00028487497255771994200000000000000_00027225735355110625500000000000000_00026070654731095606800000000000000_00025009311608584963500000000000000_00024030769696472371900000000000000_00023125726375276512400000000000000_00022286219252605262400000000000000_00021505393660450329100000000000000_00020777316847059755700000000000000,
  05760207733063746340000000000000000_01057312761236456250000000000000000_00469069704565006800000000000000000_00281208395273112537000000000000000_00195551632565556575000000000000000_00148166615787879623000000000000000_00118591179555303867000000000000000_00098557670589911690700000000000000_00084166698914849210900000000000000_00073364158620249489000000000000000_00064974415945773058600000000000000_00058279807099521681300000000000000_00052819086287649962900000000000000_00048283084901797781600000000000000_00044457206528454834300000000000000_00041188046750420763700000000000000_00038363151281751100600000000000000_00035898274698738065400000000000000_00033729097916475785000000000000000_00031805690746878457100000000000000_00030088717160209317000000000000000_00028546777260282537200000000000000_00027154508765638697300000000000000_00025891207006909669200000000000000_00024739805841230822000000000000000_00023686114226584419800000000000000_00022718236802833312500000000000000_00021826128847006074300000000000000_00021001250673180739900000000000000_00020236296533628032000000000000000_00019524979968344330400000000000000_00018861862374014845400000000000000,
  05656775740011073070000000000000000_01011779848431094720000000000000000_00441902414796792790000000000000000_00262374703642592742000000000000000_00181311845276111274000000000000000_00136786558751513941000000000000000_00109144284573612176000000000000000_00090497230919330642200000000000000_00077145657948243977400000000000000_00067149510411328321500000000000000_00059402665345043645800000000000000_00053232072829973744300000000000000_00048206356056817126400000000000000_00044037057433128439900000000000000_00040524372492702291500000000000000_00037525731534854155700000000000000_00034936791380965541400000000000000_00032679495292135984700000000000000_00030694325651461332100000000000000_00028935133016528685100000000000000_00027365597916648126700000000000000_00025956755946638229900000000000000_00024685232277697075900000000000000_00023531959840941538500000000000000_00022481233760046733300000000000000_00021520003698750564300000000000000_00020637337262661182700000000000000_00019824008194131597400000000000000_00019072176836782721800000000000000_00018375139667082131100000000000000_00017727131115175738100000000000000_00017123165390800584500000000000000,
  05557764282341628540000000000000000_00968871822801563230000000000000000_00416549153231367637000000000000000_00244909631929731906000000000000000_00168164143877916315000000000000000_00126312033751483708000000000000000_00100469341327540782000000000000000_00083108730075813568700000000000000_00070719045467308020000000000000000_00061467550010439855600000000000000_00054313316105048379600000000000000_00048625021939977278800000000000000_00043999160776115078900000000000000_00040166559689323320400000000000000_00036941162232834295300000000000000_00034190452470431152300000000000000_00031817602851925143100000000000000_00029750283587375977100000000000000_00027933415138340450700000000000000_00026324339005098259000000000000000_00024889518396813972400000000000000_00023602233619843299300000000000000_00022440940158153507100000000000000_00021388077963079747100000000000000_00020429194035546475100000000000000_00019552286426594217900000000000000_00018747307262954183300000000000000_00018005781675509725700000000000000_00017320512345606224400000000000000_00016685348084464533200000000000000_00016095000851933838200000000000000_00015544899807049811400000000000000,
  05462919717851479920000000000000000_00928413946322498393000000000000000_00392878370545701446000000000000000_00228708373297903855000000000000000_00156021725369267807000000000000000_00116669108416884462000000000000000_00092502041269348226400000000000000_00076335310052507798200000000000000_00064835932909725804400000000000000_00056272174645270144500000000000000_00049664266404228958600000000000000_00044419921649964035700000000000000_00040161642342036974000000000000000_00036638214462387279800000000000000_00033676360849093720400000000000000_00031152895676945988100000000000000_00028977955949267535600000000000000_00027084512017368144600000000000000_00025421586873779421800000000000000_00023949745618170130600000000000000_00022638018573929428700000000000000_00021461755058423725200000000000000_00020401096254646446500000000000000_00019439869044020427800000000000000_00018564771765994431100000000000000_00017764766058947834600000000000000_00017030616553470323000000000000000_00016354538218987833500000000000000_00015729923161068578100000000000000_00015151126788384200100000000000000_00014613298855135971400000000000000_00014112248784861260800000000000000,
  05372005237504815330000000000000000_00890244126031053179000000000000000_00370768576144196295000000000000000_00213674442034162052000000000000000_00144804867710729915000000000000000_00107790005241005852000000000000000_00085183514520716454700000000000000_00070124982043456751200000000000000_00059449797790098550800000000000000_00051521303901603184300000000000000_00045417113843677249700000000000000_00040581463187285276600000000000000_00036661129070042799700000000000000_00033421623963025228300000000000000_00030701550934296607900000000000000_00028386383644473620100000000000000_00026392713622181426500000000000000_00024658416805509282600000000000000_00023136308855670401500000000000000_00021789931830089625300000000000000_00020590684467337804300000000000000_00019515823272598302400000000000000_00018547042034305422800000000000000_00017669444115462542600000000000000_00016870786785269364800000000000000_00016140917372088475400000000000000_00015471346890994893000000000000000_00014854923669113562000000000000000_00014285580703443673800000000000000_00013758138067875115400000000000000_00013268146896402501100000000000000_00012811765103310338600000000000000,
  05284799649863474000000000000000000_00854211948604810435000000000000000_00350107540447580306000000000000000_00199718995340815533000000000000000_00134440340738557608000000000000000_00099612581342503855100000000000000_00078459864327786065800000000000000_00064430205345133556300000000000000_00054518139403612165500000000000000_00047176526382205400400000000000000_00041536828493408325400000000000000_00037077457585940218900000000000000_00033467851310949515500000000000000_00030489102847451895600000000000000_00027990861015500653500000000000000_00025866637417040981300000000000000_00024039006024217179700000000000000_00022450383592901718400000000000000_00021057092287789350200000000000000_00019825423564945982700000000000000_00018728961413962161800000000000000_00017746720476842774400000000000000_00016861824649396601800000000000000_00016060552189879523900000000000000_00015331634356822217400000000000000_00014665732608665000400000000000000_00014055043637855068400000000000000_00013492997297929809700000000000000_00012974022960859607700000000000000_00012493366920648145700000000000000_00012046948318656100900000000000000_00011631244451948982400000000000000,
  05201096258180752400000000000000000_00820177791415816563000000000000000_00330791562142012507000000000000000_00186760211510336229000000000000000_00124860866842888206000000000000000_00092079852738181108600000000000000_00072281741762109383000000000000000_00059207502974150415900000000000000_00050002128278585105100000000000000_00043202777586386988600000000000000_00037991454980209488200000000000000_00033878558630753500500000000000000_00030554682545562653800000000000000_00027815435247658338300000000000000_00025520736684749193400000000000000_00023571560286704814100000000000000_00021896025470655283700000000000000_00020440752549900841300000000000000_00019165305891848177800000000000000_00018038516383250523300000000000000_00017035984409748349500000000000000_00016138345454911193100000000000000_00015330040769464580700000000000000_00014598430066736871800000000000000_00013933140515080950700000000000000_00013325581961926238700000000000000_00012768581036796164800000000000000_00012256101553217336600000000000000_00011783028424066761400000000000000_00011344998914218884200000000000000_00010938269586916878300000000000000_00010559610455312487100000000000000,
  05120701822827482040000000000000000_00788012003838518923000000000000000_00312724794991635255000000000000000_00174722719723121377000000000000000_00116004627154789198000000000000000_00085139559280867325400000000000000_00066603957159563498100000000000000_00054417110777629859600000000000000_00045866286396616483300000000000000_00039568046237656538900000000000000_00034751841026103784300000000000000_00030958010514501238100000000000000_00027896903667147618200000000000000_00025377653640451407500000000000000_00023269732366916502100000000000000_00021481041047673495200000000000000_00019944839985138975900000000000000_00018611641197502399000000000000000_00017444007129053736900000000000000_00016413114346709650700000000000000_00015496423958207601500000000000000_00014676065814213684400000000000000_00013937694732261403200000000000000_00013269665928912216500000000000000_00012662430706000324900000000000000_00012108086901714419200000000000000_00011600039900579843300000000000000_00011132743821837828000000000000000_00010701501661553146900000000000000_00010302309335251221000000000000000_00009931732795818922610000000000000_00009586810341531377450000000000000,
  05043435602314388070000000000000000_00757594153105958107000000000000000_00295818629273205815000000000000000_00163537077114564941000000000000000_00107814809353885859000000000000000_00078743766751055550900000000000000_00061385125097161938300000000000000_00050022657097410961400000000000000_00042078195463754165300000000000000_00036243106534196896700000000000000_00031791390078516934500000000000000_00028291417995036032600000000000000_00025471988367864886600000000000000_00023154837586330455700000000000000_00021218321858713812400000000000000_00019576775037343521800000000000000_00018168223746501624200000000000000_00016946783325985694700000000000000_00015877788788476647300000000000000_00014934583582499420100000000000000_00014096346006472992600000000000000_00013346583764458878000000000000000_00012672069698848721000000000000000_00012062075461592169100000000000000_00011507810502698753400000000000000_00011002005158933247400000000000000_00010538596571159365000000000000000_00010112489098801152700000000000000_00009719369459237327710000000000000_00009355562582981374930000000000000_00009017918119543615160000000000000_00008703720268920182530000000000000,
  04969128466721305880000000000000000_00728812329481569003000000000000000_00279991123307924024000000000000000_00153139289129684203000000000000000_00100239193543905058000000000000000_00072848502896704429800000000000000_00056587339988414623700000000000000_00045990870308679362500000000000000_00038608230757195544700000000000000_00033201274022055838500000000000000_00029085835884432721100000000000000_00025856537038307916400000000000000_00023259407733145809100000000000000_00021127930547268897700000000000000_00019348725942045512700000000000000_00017842101352216420400000000000000_00016550502900504995300000000000000_00015431382545336578100000000000000_00014452639540516479700000000000000_00013589619203795433700000000000000_00012823084679426427800000000000000_00012137814180791206500000000000000_00011521610619103841400000000000000_00010964589342595935900000000000000_00010458657284908214000000000000000_00009997126294342649190000000000000_00009574422109015652870000000000000_00009185862555201861540000000000000_00008827486548471665140000000000000_00008495920859243040690000000000000_00008188275283832474210000000000000_00007902059415839171960000000000000,
  04897622077845122010000000000000000_00701562505947103103000000000000000_00265166480946507368000000000000000_00143470369523261670000000000000000_00093229772949870240500000000000000_00067413424494557814500000000000000_00052175879633824032600000000000000_00042291311790007854900000000000000_00035429318291633698800000000000000_00030418182995954801200000000000000_00026613037053043604900000000000000_00023633084114102117400000000000000_00021240452318857273100000000000000_00019279573154339012000000000000000_00017644755528670495800000000000000_00016261854773090972900000000000000_00015077415340962188800000000000000_00014051979135639074600000000000000_00013155817181828977800000000000000_00012366124366251566400000000000000_00011665126640648271800000000000000_00011038773825455780000000000000000_00010475817923583810500000000000000_00009967151059001456080000000000000_00009505321873344731860000000000000_00009084176876598392130000000000000_00008698590769196226110000000000000_00008344261091209036290000000000000_00008017550036380444430000000000000_00007715361295316122050000000000000_00007435043224998288940000000000000_00007174312022067730260000000000000,
  04828768130838128360000000000000000_00675747948003898229000000000000000_00251274571212014338000000000000000_00134475936673889642000000000000000_00086742406470428399800000000000000_00062401512760826597500000000000000_00048118934296468563400000000000000_00038896132097225949900000000000000_00032516713249392302200000000000000_00027871583519283194300000000000000_00024352789826360702700000000000000_00021602562475935560900000000000000_00019398070141533007000000000000000_00017593951443321988000000000000000_00016091668932923275800000000000000_00014822231067026506700000000000000_00013735983191730553700000000000000_00012796328987077002600000000000000_00011975733414438642100000000000000_00011253100351792379500000000000000_00010612006016288294600000000000000_00010039480705366670200000000000000_00009525150957328297520000000000000_00009060624101117171790000000000000_00008639039203046518130000000000000_00008254734384375656640000000000000_00007902996907690671830000000000000_00007579873044728114050000000000000_00007282021734491851270000000000000_00007006600735399313300000000000000_00006751177178205974270000000000000_00006513656645176420580000000000000,
  04762427652530321950000000000000000_00651278669548097229000000000000000_00238250486623681014000000000000000_00126105843163991805000000000000000_00080736500374217917600000000000000_00057778794671279480000000000000000_00044387359085413747800000000000000_00035779848309870283300000000000000_00029847797800704919900000000000000_00025541156324812182800000000000000_00022286657436495688000000000000000_00019748103906345390300000000000000_00017716719153335761900000000000000_00016056658710313713800000000000000_00014676041996354334800000000000000_00013510664454561016800000000000000_00012514396836489812500000000000000_00011653293529544561200000000000000_00010901849107470418800000000000000_00010240546672521279800000000000000_00009654208915451340730000000000000_00009130862636800614010000000000000_00008660940261642001140000000000000_00008236707672151361270000000000000_00007851847204096056620000000000000_00007501149029036173450000000000000_00007180279540821183970000000000000_00006885605302979699390000000000000_00006614057655973922300000000000000_00006363027468713643530000000000000_00006130282507477084330000000000000_00005913901963653139570000000000000,
  04698470352016235170000000000000000_00628070931113292880000000000000000_00226034137016670519000000000000000_00118313835837166798000000000000000_00075174716662426082800000000000000_00053514087962664248300000000000000_00040954447623731674800000000000000_00032919140697903823600000000000000_00027401896606481763700000000000000_00023408344012429282300000000000000_00020397814573281622200000000000000_00018054324545104151400000000000000_00016182232902030067800000000000000_00014654569761080955200000000000000_00013385649903714397600000000000000_00012315716140647503500000000000000_00011401909448126800100000000000000_00010612739652142770700000000000000_00009924579085973138010000000000000_00009319370279688728440000000000000_00008783086669239343100000000000000_00008304674173661151410000000000000_00007875307892034929020000000000000_00007487860131198114080000000000000_00007136513134732336320000000000000_00006816472768385638920000000000000_00006523753852068939650000000000000_00006255017133781256330000000000000_00006007444019254870110000000000000_00005778639267763226980000000000000_00005566554653549340660000000000000_00005369428520474967510000000000000,
  04636774019442063220000000000000000_00606046777079046890000000000000000_00214569875939474314000000000000000_00111057243781173050000000000000000_00070022705832678575700000000000000_00049578767780719663000000000000000_00037795725154859817400000000000000_00030292667019479446900000000000000_00025160108447120291100000000000000_00021456197101127686300000000000000_00018670905617847282200000000000000_00016507193541926016300000000000000_00014781698193246217600000000000000_00013375726438643032400000000000000_00012209359634782814700000000000000_00011226972907746669300000000000000_00010388741064891824900000000000000_00009665448703958974250000000000000_00009035205578560901480000000000000_00008481303046364964840000000000000_00007990776991015002870000000000000_00007553421133151320770000000000000_00007161095035080720140000000000000_00006807229459125944210000000000000_00006486466681388023590000000000000_00006194394849317714980000000000000_00005927349005871924450000000000000_00005682260116428665000000000000000_00005456539157034856560000000000000_00005247987149730724430000000000000_00005054724633498212940000000000000_00004875135857009080730000000000000,
  04577223969254835230000000000000000_00585133608723167745000000000000000_00203806156954879638000000000000000_00104296691901487065000000000000000_00065248861973921019100000000000000_00045946553116472332400000000000000_00034888759402405641200000000000000_00027880892909172895000000000000000_00023105152558675609900000000000000_00019669233620823169900000000000000_00017091915417871123700000000000000_00015093913388094552100000000000000_00013503343678754160500000000000000_00012209233414251364800000000000000_00011137032092080126600000000000000_00010234954860395913500000000000000_00009465991347145865740000000000000_00008803033750326980720000000000000_00008225799534871677440000000000000_00007718826768494345060000000000000_00007270132333498046640000000000000_00006870292022976486530000000000000_00006511796254675001210000000000000_00006188590102294748950000000000000_00005895739203305309290000000000000_00005629183278184627460000000000000_00005385551687030011940000000000000_00005162023609350908180000000000000_00004956220785257572700000000000000_00004766124331930774600000000000000_00004590009578448890480000000000000_00004426394538106541490000000000000,
  04519712524474597160000000000000000_00565263790251702790000000000000000_00193695217393875317000000000000000_00097995837948384293300000000000000_00060824098299609749400000000000000_00042593311333530498200000000000000_00032212987645681516200000000000000_00025665936951605756900000000000000_00021221228383214525700000000000000_00018033311046446181600000000000000_00015648051489581775300000000000000_00013802810884152805600000000000000_00012336438391297180500000000000000_00011145163318522836100000000000000_00010159433031376396900000000000000_00009331031493192046210000000000000_00008625560227275983510000000000000_00008017864334006776040000000000000_00007489149095865947850000000000000_00007025104998076856940000000000000_00006614654784650192470000000000000_00006249095738026570190000000000000_00005921499759669284270000000000000_00005626285608350241340000000000000_00005358908556684919120000000000000_00005115631673145405160000000000000_00004893354837994698090000000000000_00004689485243692505390000000000000_00004501838137030505060000000000000_00004328559901195109280000000000000_00004168067843270459180000000000000_00004019002615505533220000000000000,
  04464138538825274730000000000000000_00546374285175286006000000000000000_00184192787316386427000000000000000_00092121131041524134800000000000000_00056721641388798084500000000000000_00039496879236043445600000000000000_00029749558607491540600000000000000_00023631429158890531100000000000000_00019493887554527446400000000000000_00016535509483195218400000000000000_00014327636631110931500000000000000_00012623237794267394500000000000000_00011271199334628998400000000000000_00010174470372779625200000000000000_00009268152000898204440000000000000_00008507345329231287690000000000000_00007860075736939235070000000000000_00007302998059096265730000000000000_00006818694565426335370000000000000_00006393921084965451790000000000000_00006018436904565222460000000000000_00005684204952452594360000000000000_00005384833140694573450000000000000_00005115176522206656490000000000000_00004871048985342175650000000000000_00004649011003041374650000000000000_00004446211115008490050000000000000_00004260265979154626680000000000000_00004089168512238536270000000000000_00003931216761481113170000000000000_00003784958265300229750000000000000_00003649146118624375610000000000000,
  04410406953812108400000000000000000_00528406320615595825000000000000000_00175257821619930709000000000000000_00086641589901538967700000000000000_00052916842552928871300000000000000_00036636899261127254900000000000000_00027481187873132250100000000000000_00021762381682922181100000000000000_00017909917044561364100000000000000_00015164025108775173400000000000000_00013120011022423311500000000000000_00011545480322943467400000000000000_00010298707317544743500000000000000_00009288911756409597990000000000000_00008455528566964667860000000000000_00007756742444329195620000000000000_00007162828360857907650000000000000_00006652118377621143680000000000000_00006208469291174778210000000000000_00005819621860765623880000000000000_00005476107960314691030000000000000_00005170504685695066150000000000000_00004896914074693255210000000000000_00004650593059231835170000000000000_00004427685612069306250000000000000_00004225025763006775420000000000000_00004039990628250467960000000000000_00003870389301241624880000000000000_00003714377835118445660000000000000_00003570393464301199940000000000000_00003437103188303624170000000000000_00003313363199897408910000000000000,
  04358428388065174840000000000000000_00511305077322873459000000000000000_00166852253408659500000000000000000_00081528599149473783500000000000000_00049387004881549269400000000000000_00033994669501991579200000000000000_00025392025671255475100000000000000_00020045070696183987900000000000000_00016457232490871627200000000000000_00013908072966732340000000000000000_00012015442969549022400000000000000_00010560676627184999400000000000000_00009410830293614940300000000000000_00008480976014970857560000000000000_00007714585169097643750000000000000_00007072709254416974790000000000000_00006527711325526066220000000000000_00006059478015213135330000000000000_00005653045916444787950000000000000_00005297066450103009590000000000000_00004982785065415231560000000000000_00004703345568830733950000000000000_00004453305541720620080000000000000_00004228292117050661950000000000000_00004024753107776662940000000000000_00003839774178468781540000000000000_00003670942571255534550000000000000_00003516244177918397040000000000000_00003373984849743824600000000000000_00003242729563144576460000000000000_00003121254903404577530000000000000_00003008511596349604170000000000000,
  04308118756481243450000000000000000_00495019403366245999000000000000000_00158940766892138206000000000000000_00076755722173323091700000000000000_00046111224643867211800000000000000_00031553006379765219600000000000000_00023467535949123851600000000000000_00018466928468313453400000000000000_00015124780811895802200000000000000_00012757798285410901800000000000000_00011005047525955961000000000000000_00009660741647654537880000000000000_00008600153534675870130000000000000_00007743817876442820370000000000000_00007038966007045129500000000000000_00006449314999944249220000000000000_00005949166284939840900000000000000_00005519847523599724730000000000000_00005147487514430155170000000000000_00004821579741564128470000000000000_00004534028775740946230000000000000_00004278501381024015880000000000000_00004049975140387573910000000000000_00003844418227698067120000000000000_00003658558154408582440000000000000_00003489712066814699700000000000000_00003335660381282455060000000000000_00003194551428951554320000000000000_00003064828617566479250000000000000_00002945174166251458940000000000000_00002834465190959406600000000000000_00002731739100446040540000000000000,
  04259398916891633910000000000000000_00479501549624374953000000000000000_00151490588226873900000000000000000_00072298529187483742300000000000000_00043070245836090334700000000000000_00029296118884046941200000000000000_00021694385767733376300000000000000_00017016444750991229500000000000000_00013902451295681293700000000000000_00011704195570299148200000000000000_00010080712292287732400000000000000_00008838298606515472460000000000000_00007859916026493784760000000000000_00007071198900038988540000000000000_00006422881416167834080000000000000_00005881159412425333800000000000000_00005422133914322794210000000000000_00005028468494260801320000000000000_00004687303160130084720000000000000_00004388910093349281050000000000000_00004125802734722400410000000000000_00003892130465303383620000000000000_00003683258126283276550000000000000_00003495468088457921740000000000000_00003325745352966628390000000000000_00003171620020157613200000000000000_00003031050105352204140000000000000_00002902333193215988580000000000000_00002784039012194192360000000000000_00002674957392216238040000000000000_00002574057676598689200000000000000_00002480456761687293410000000000000,
  04212194342163277500000000000000000_00464706925355976487000000000000000_00144471292845141483000000000000000_00068134439226707159400000000000000_00040246326767757466400000000000000_00027209493395355998300000000000000_00020060344127071769300000000000000_00015683076661505521500000000000000_00012780994419533910300000000000000_00010739034784249098100000000000000_00009235029757960051480000000000000_00008086616578008712430000000000000_00007183952529944997050000000000000_00006457433433856876630000000000000_00005861057236755824690000000000000_00005363325094913011860000000000000_00004942008967229426800000000000000_00004581011009987121880000000000000_00004268407536234642490000000000000_00003995190887499700030000000000000_00003754436997932260140000000000000_00003540740668697528880000000000000_00003349823832194242050000000000000_00003178258342960963670000000000000_00003023266260054645530000000000000_00002882573603635593110000000000000_00002754301676673958710000000000000_00002636885208299477270000000000000_00002529009934748504340000000000000_00002429564460225038130000000000000_00002337602741203731570000000000000_00002252314566220819740000000000000,
  04166434815805158410000000000000000_00450593872269192816000000000000000_00137854627936128376000000000000000_00064242574922024312800000000000000_00037623117674638569400000000000000_00025279788187702673300000000000000_00018554189409145149000000000000000_00014457166326273763600000000000000_00011751947723520376500000000000000_00009854793990824815150000000000000_00008461235604805380310000000000000_00007399553590943324620000000000000_00006566640801030377930000000000000_00005897339404815153700000000000000_00005348688727509564980000000000000_00004891334190594924390000000000000_00004504599391779954570000000000000_00004173534949590603970000000000000_00003887084205916452670000000000000_00003636905581831742640000000000000_00003416594701001655350000000000000_00003221157484293867130000000000000_00003046645160245913530000000000000_00002889896314293671530000000000000_00002748351265486610770000000000000_00002619916291824540320000000000000_00002502862833403165720000000000000_00002395751643104968700000000000000_00002297374998705579310000000000000_00002206712171532772870000000000000_00002122894748667837140000000000000_00002045179365146111200000000000000,
  04122054149303926480000000000000000_00437123455636694637000000000000000_00131614348854755228000000000000000_00060603629002982643700000000000000_00035185548432015509700000000000000_00023494736787152583800000000000000_00017165624696993761500000000000000_00013329865610280769900000000000000_00010807568120421275100000000000000_00009044597891394115340000000000000_00007753152444581779900000000000000_00006771504770639300150000000000000_00006002853508518270330000000000000_00005386193507241406720000000000000_00004881398614041539670000000000000_00004461108952268351530000000000000_00004106089138476421840000000000000_00003802454796020228730000000000000_00003539952218953498820000000000000_00003310855940754743460000000000000_00003109241765554258520000000000000_00002930495102324867690000000000000_00002770970864525379830000000000000_00002627753419272421280000000000000_00002498484049942172140000000000000_00002381234891394632450000000000000_00002274415436390265060000000000000_00002176702248081329560000000000000_00002086985456319272770000000000000_00002004327561289427320000000000000_00001927931377145695180000000000000_00001857114843429520590000000000000,
  04078989919551833350000000000000000_00424259271120731402000000000000000_00125726068334599578000000000000000_00057199741559153161700000000000000_00032919725520969570300000000000000_00021843059433166804400000000000000_00015885200292327306100000000000000_00012293067317372001000000000000000_00009940770079108706750000000000000_00008302161737009557850000000000000_00007105138509172705120000000000000_00006197355071879642200000000000000_00005487914429390808470000000000000_00004919690395511919250000000000000_00004455198900198260500000000000000_00004068935860509721660000000000000_00003743004325408851130000000000000_00003464507629950416640000000000000_00003223935748011320360000000000000_00003014133155261774740000000000000_00002829619365771387650000000000000_00002666130104220076870000000000000_00002520300368564376000000000000000_00002389441017919015870000000000000_00002271378385663359060000000000000_00002164337221334725830000000000000_00002066853965012004940000000000000_00001977711609433839450000000000000_00001895890159776914780000000000000_00001820528520247443770000000000000_00001750894859323511860000000000000_00001686363340614473640000000000000,
  04037183224858262710000000000000000_00411967266080006502000000000000000_00120167117473939502000000000000000_00054014387174947627200000000000000_00030812837472336781400000000000000_00020314381954253202500000000000000_00014704242813185931200000000000000_00011339342300126751800000000000000_00009145069167885519640000000000000_00007621740142068077660000000000000_00006512040855113873660000000000000_00005672436194499068580000000000000_00005017558539924821760000000000000_00004493905521658359960000000000000_00004066456103601607340000000000000_00003711432970233992130000000000000_00003412182456984736200000000000000_00003156724019822500640000000000000_00002936236479540336890000000000000_00002744091588832518390000000000000_00002575218903569575930000000000000_00002425677557932533820000000000000_00002292360885510277680000000000000_00002172788474766896580000000000000_00002064957064983734490000000000000_00001967231843125281390000000000000_00001878265990540527350000000000000_00001796940313379964680000000000000_00001722317369343517590000000000000_00001653606204414605650000000000000_00001590134955235567170000000000000_00001531329351996803040000000000000,
  03996578458153926720000000000000000_00400215574229049318000000000000000_00114916417548765770000000000000000_00051032271125978106800000000000000_00028853068078837075700000000000000_00018899161428601048600000000000000_00013614790306670217300000000000000_00010461881967088716300000000000000_00008414530489498708100000000000000_00006998080368595370660000000000000_00005969152683068228300000000000000_00005192487309713202970000000000000_00004587895654506149290000000000000_00004105261291164319080000000000000_00003711859607366654080000000000000_00003385520194325465630000000000000_00003110744419882247900000000000000_00002876401545599058720000000000000_00002674308508849352050000000000000_00002498324910018634770000000000000_00002343759263416668460000000000000_00002206969294983673640000000000000_00002085086630107608290000000000000_00001975823229142751840000000000000_00001877332761272033820000000000000_00001788109652355740020000000000000_00001706914444989728130000000000000_00001632717844409406700000000000000_00001564658238089179950000000000000_00001502009067534678800000000000000_00001444153497479861610000000000000_00001390564554798791150000000000000,
  03957123096105135420000000000000000_00388974362611428075000000000000000_00109954361784342955000000000000000_00048239233893086010600000000000000_00027029516726074740300000000000000_00017588618054381799200000000000000_00012609532860734512000000000000000_00009654445719869398520000000000000_00007743721580718630690000000000000_00006426379688136205080000000000000_00005472174408373322550000000000000_00004753619258498510250000000000000_00004195377295461106480000000000000_00003750496239567299100000000000000_00003388392847746240490000000000000_00003088392259378630310000000000000_00002836069004988286870000000000000_00002621080717375879590000000000000_00002435835511730111460000000000000_00002274644394315945300000000000000_00002133166138746719550000000000000_00002008034169776083080000000000000_00001896599930951690130000000000000_00001796752690197138490000000000000_00001706790644841083820000000000000_00001625327160635843630000000000000_00001551221520157335430000000000000_00001483527057748410690000000000000_00001421451818530791680000000000000_00001364328366540045450000000000000_00001311590363500801070000000000000_00001262754218269419400000000000000,
  03918767502955190590000000000000000_00378215689931375905000000000000000_00105262706288134446000000000000000_00045622163312305477500000000000000_00025332125248135488400000000000000_00016374672703731670000000000000000_00011681758243714902900000000000000_00008911312893444840810000000000000_00007127669386913357950000000000000_00005902246462977521970000000000000_00005017178151119270240000000000000_00004352281913563560190000000000000_00003836766505569168960000000000000_00003426636959222829700000000000000_00003093307082731376540000000000000_00002817494092554270450000000000000_00002585769726865296370000000000000_00002388523071705727360000000000000_00002218709985739617310000000000000_00002071059197765635250000000000000_00001941553240951315050000000000000_00001827080119985054510000000000000_00001725194069039312050000000000000_00001633947789373792270000000000000_00001551772592687438760000000000000_00001477391312404719450000000000000_00001409754046812189310000000000000_00001347990080969575700000000000000_00001291371450801010050000000000000_00001239285003970707060000000000000_00001191210743050525020000000000000_00001146704869698594620000000000000,
  03881464748001623700000000000000000_00367913375364809228000000000000000_00100824469412194227000000000000000_00043168913735900327900000000000000_00023751610763816785700000000000000_00015249889679494552600000000000000_00010825302141041572600000000000000_00008227238810185838380000000000000_00006561820956267293420000000000000_00005421664620090025380000000000000_00004600575343663726730000000000000_00003985234423974090110000000000000_00003509110340749648870000000000000_00003130972529916682470000000000000_00002824097509629106010000000000000_00002570498420349649040000000000000_00002357673733003018850000000000000_00002176691248220374800000000000000_00002021014373087057090000000000000_00001885758422751287330000000000000_00001767205219201200150000000000000_00001662477863427065590000000000000_00001569317684591932310000000000000_00001485928038368195180000000000000_00001410862845740139370000000000000_00001342945695544144700000000000000_00001281210217802274590000000000000_00001224855513068541260000000000000_00001173212404919427420000000000000_00001125717583923042170000000000000_00001081893581139592670000000000000_00001041333100183406620000000000000,
  03845170435702341990000000000000000_00358042877040871682000000000000000_00096623838872972913500000000000000_00040868231631675698600000000000000_00022279403995530917700000000000000_00014207424234969443200000000000000_00010034502595807708800000000000000_00007597414592113023740000000000000_00006042007529489923960000000000000_00004980961220021372190000000000000_00004219087180311689570000000000000_00003649518086551256490000000000000_00003209714803922333700000000000000_00002861031229146809470000000000000_00002578481520552989950000000000000_00002345285379899485510000000000000_00002149802613941687610000000000000_00001983730867072974430000000000000_00001841003894193579520000000000000_00001717094812835875470000000000000_00001608562135046885030000000000000_00001512746081869823020000000000000_00001427560608613229050000000000000_00001351347954574825000000000000000_00001282774980746661580000000000000_00001220758017687193870000000000000_00001164407531409879750000000000000_00001112986801473723100000000000000_00001065880661504963060000000000000_00001022571569498182300000000000000_00000982621087857603165000000000000_00000945655404736946316000000000000,
  03809842547481366580000000000000000_00348581179449559250000000000000000_00092646086011347321400000000000000_00038709687095426845100000000000000_00020907592614987151500000000000000_00013240974454514600300000000000000_00009304158293845733690000000000000_00007017430406839616490000000000000_00005564411729302552560000000000000_00004576776849260806820000000000000_00003869717658317467570000000000000_00003342431610975938800000000000000_00002936122002437028950000000000000_00002614559318036948520000000000000_00002354378903784345390000000000000_00002139923961446234850000000000000_00001960354942472833380000000000000_00001807954044025631640000000000000_00001677090936552817380000000000000_00001563569928363663260000000000000_00001464205350005202550000000000000_00001376537955933946720000000000000_00001298640988799354550000000000000_00001228984728689284730000000000000_00001166340076136083580000000000000_00001109708731901982940000000000000_00001058271842673560170000000000000_00001011351688478889760000000000000_00000968382725945579335000000000000_00000928889440071420583000000000000_00000892469216489549498000000000000_00000858778961086651809000000000000,
  03775441294376290760000000000000000_00339506689090150008000000000000000_00088877486625982668600000000000000_00036683610795024788400000000000000_00019628869198230259000000000000000_00012344737127221060100000000000000_00008629490364980999200000000000000_00006483241850919301790000000000000_00005125537579922623360000000000000_00004206038588549447930000000000000_00003549728981618076420000000000000_00003061508566303539540000000000000_00002686089330940067230000000000000_00002389501717169182810000000000000_00002149893816266115080000000000000_00001952655117006969760000000000000_00001787690385688672050000000000000_00001647824394825955250000000000000_00001527830857660705800000000000000_00001423820668073222240000000000000_00001332844697292272480000000000000_00001252628927667500170000000000000_00001181393591369257930000000000000_00001117727020634176100000000000000_00001060495962287782410000000000000_00001008780706132788040000000000000_00000961827420739229083000000000000_00000919012628594406498000000000000_00000879816380731971586000000000000_00000843801756098337314000000000000_00000810599020469202872000000000000_00000779893260361882294000000000000,
  03741928979735358090000000000000000_00330799137729511499000000000000000_00085305247859259391700000000000000_00034781035904595325900000000000000_00018436483407798033300000000000000_00011513367277263660000000000000000_00008006107400452763540000000000000_00005991139200094340870000000000000_00004722183110409446870000000000000_00003865935331440293620000000000000_00003256619118976452720000000000000_00002804496815506803480000000000000_00002457570499270283210000000000000_00002183984403297122490000000000000_00001963298368231517780000000000000_00001781876385168277450000000000000_00001630315247802436840000000000000_00001501943393986706020000000000000_00001391909073634410950000000000000_00001296607014253919360000000000000_00001213306820631566690000000000000_00001139905578666511270000000000000_00001074759171234881810000000000000_00001016564780423247620000000000000_00000964277456702083015000000000000_00000917049840497567816000000000000_00000874187919691665213000000000000_00000835118087395441793000000000000_00000799362289457141999000000000000_00000766519047698909440000000000000_00000736248807982709713000000000000_00000708262510903212880000000000000,
  03709269871232621280000000000000000_00322439492689290224000000000000000_00081917440657294556500000000000000_00032993644623838601300000000000000_00017324198051943638700000000000000_00010741941043226317600000000000000_00007429973412348839140000000000000_00005537719279458086070000000000000_00004351415317294610830000000000000_00003553895247306636530000000000000_00002988101326676611080000000000000_00002569339761885623250000000000000_00002248698241110228700000000000000_00001996298373073946480000000000000_00001793017675288055030000000000000_00001626127895494812990000000000000_00001486869314528638170000000000000_00001369037965327397530000000000000_00001268129316819840880000000000000_00001180800890142226750000000000000_00001104524573757378570000000000000_00001037355521871911710000000000000_00000977774812787673328000000000000_00000924580000064260711000000000000_00000876807493711186472000000000000_00000833676545362755216000000000000_00000794548178841034064000000000000_00000758894640689655943000000000000_00000726276373966521861000000000000_00000696324450998159512000000000000_00000668727020541989786000000000000_00000643218743714793799000000000000,
  03677430081525415490000000000000000_00314409873626867012000000000000000_00078702937364383007700000000000000_00031313718911048007900000000000000_00016286248700308440300000000000000_00010025921624915328900000000000000_00006897378484509523310000000000000_00005119859728005659960000000000000_00004010547281579892410000000000000_00003267565201129312370000000000000_00002742085462732654100000000000000_00002354159246864447290000000000000_00002057768553803805190000000000000_00001824885033735946740000000000000_00001637616246302794360000000000000_00001484079628364042150000000000000_00001356113881510962000000000000000_00001247949192767551600000000000000_00001155402956302255030000000000000_00001075376028398731780000000000000_00001005527383947620000000000000000_00000944058214490885556000000000000_00000889565152530166501000000000000_00000840938311215460781000000000000_00000797289066669699073000000000000_00000757898001125612681000000000000_00000722176776176560281000000000000_00000689639800310305810000000000000_00000659882893388678628000000000000_00000632567023223839166000000000000_00000607405768659341667000000000000_00000584155554694973637000000000000,
  03646377456929754070000000000000000_00306693475317124608000000000000000_00075651354047770350300000000000000_00029734095089082038900000000000000_00015317306562363608500000000000000_00009361128040134642700000000000000_00006404911885915031980000000000000_00004734695451628112160000000000000_00003697117253113388990000000000000_00003004791958918976310000000000000_00002516660934896343860000000000000_00002157239952977926170000000000000_00001883226333119373690000000000000_00001668322893245817790000000000000_00001495785587284185420000000000000_00001354519817250651250000000000000_00001236920859922584440000000000000_00001137622049979796130000000000000_00001052739284882133240000000000000_00000979398758725020139000000000000_00000915432491745092634000000000000_00000859176607954669972000000000000_00000809334402912467497000000000000_00000764881351133673307000000000000_00000724997908101606196000000000000_00000689021127906356889000000000000_00000656409265723771949000000000000_00000626715499633578050000000000000_00000599568160352805120000000000000_00000574655673934423687000000000000_00000551714963936212305000000000000_00000530522424781801551000000000000,
  03616081473536584970000000000000000_00299274495980826782000000000000000_00072752997181318063500000000000000_00028248122011660561100000000000000_00014412444359580028600000000000000_00008743706455796389440000000000000_00005949437437258058300000000000000_00004379597076474264470000000000000_00003408869531704198570000000000000_00002763605022692315960000000000000_00002310081138707534920000000000000_00001977015178849554090000000000000_00001723652278906346650000000000000_00001525315433832923500000000000000_00001366332912235445860000000000000_00001236344390680362150000000000000_00001128262862035636880000000000000_00001037096056709369390000000000000_00000959236684847028695000000000000_00000892019631056373123000000000000_00000833436987044580632000000000000_00000781949558513685139000000000000_00000736359104118739728000000000000_00000695719826556641959000000000000_00000659275840124882321000000000000_00000626416199954637458000000000000_00000596642035918577179000000000000_00000569542178085083853000000000000_00000544774835668002305000000000000_00000522053655534378930000000000000_00000501136992488731054000000000000_00000481819564595750838000000000000,
  03586513140235459940000000000000000_00292138070741032944000000000000000_00069998814346577115400000000000000_00026849622503117012500000000000000_00013567104944832874000000000000000_00008170103877757200100000000000000_00005528070939382883300000000000000_00004052151230911431000000000000000_00003143736989247003300000000000000_00002542200952650904220000000000000_00002120749254549930770000000000000_00001812053864810698470000000000000_00001577750958671150830000000000000_00001394680063272192310000000000000_00001248170861761571110000000000000_00001128547360346519460000000000000_00001029204178351153970000000000000_00000945496777928693150000000000000_00000874074592839855371000000000000_00000812465798378411804000000000000_00000758810569008199642000000000000_00000711684929055586935000000000000_00000669981537256738808000000000000_00000632827211614362427000000000000_00000599524733689918798000000000000_00000569511045569507899000000000000_00000542326731900563782000000000000_00000517593409497693091000000000000_00000494996748156975020000000000000_00000474273561482750116000000000000_00000455201879723297715000000000000_00000437593235103535729000000000000,
  03557644908152365880000000000000000_00285270209821726495000000000000000_00067380348637275979100000000000000_00025532857808340528400000000000000_00012777072443179544800000000000000_00007637044002069238640000000000000_00005138159488693893660000000000000_00003750142499198651130000000000000_00002899825090727614780000000000000_00002338929046726782880000000000000_00001947205284262220240000000000000_00001661048758592683990000000000000_00001444339926183418400000000000000_00001275338047711944870000000000000_00001140308139134287720000000000000_00001030212070317500030000000000000_00000938892565877835269000000000000_00000862028089597679051000000000000_00000796506191367856705000000000000_00000740034090133335036000000000000_00000690888963890542160000000000000_00000647753319077006850000000000000_00000609603738496286365000000000000_00000575634021723834097000000000000_00000545201020811520880000000000000_00000517785778774772540000000000000_00000492965189883552894000000000000_00000470391024263787076000000000000_00000449774191254108512000000000000_00000430872785365067866000000000000_00000413482901095295201000000000000_00000397431500310940614000000000000,
  03529450586045522370000000000000000_00278657741132955024000000000000000_00064889696478458413000000000000000_00024292494811270079100000000000000_00012038445707031863900000000000000_00007141505047063310090000000000000_00004777262519635503390000000000000_00003471536903569244110000000000000_00002675397284384888370000000000000_00002152278259067780470000000000000_00001788114218412600060000000000000_00001522805620347264520000000000000_00001322339801404604430000000000000_00001166305338478257330000000000000_00001041840981636815850000000000000_00000940503229934808841000000000000_00000856551774419841733000000000000_00000785965141711564201000000000000_00000725851761080609427000000000000_00000674084713467736552000000000000_00000629067940869258513000000000000_00000589582365504010379000000000000_00000554682059236776036000000000000_00000523622610743321697000000000000_00000495810709098972343000000000000_00000470768013933379092000000000000_00000448104836532798843000000000000_00000427500679837243685000000000000_00000408689652441217018000000000000_00000391449398322246174000000000000_00000375592597676464761000000000000_00000360960372061530330000000000000,
  03501905261237115840000000000000000_00272288256914482539000000000000000_00062519468594664708600000000000000_00023123575800123765500000000000000_00011347613896025547900000000000000_00006680699400975827060000000000000_00004443134428046465050000000000000_00003214466783817554740000000000000_00002468861642619060630000000000000_00001980865249436303570000000000000_00001642255234964876790000000000000_00001396233375197114660000000000000_00001210765226390179070000000000000_00001066684213126182170000000000000_00000951945392395904179000000000000_00000858659659979834077000000000000_00000781474744346524329000000000000_00000716647955601246708000000000000_00000661492633930022641000000000000_00000614035525286835368000000000000_00000572797871441190185000000000000_00000536651562292925983000000000000_00000504722222410661897000000000000_00000476322443495346905000000000000_00000450904852542340590000000000000_00000428028518971511245000000000000_00000407334510609978787000000000000_00000388527838327307089000000000000_00000371363935645511322000000000000_00000355638406254281280000000000000_00000341179159161191446000000000000_00000327840310710416659000000000000,
  03474985225690448350000000000000000_00266150064135436356000000000000000_00060262753882810257200000000000000_00022021490575713504700000000000000_00010701234007709139100000000000000_00006252054933815886740000000000000_00004133708641707617670000000000000_00002977216954801792710000000000000_00002278758645557782010000000000000_00001823423464977428440000000000000_00001508511838830416610000000000000_00001280335129666386480000000000000_00001108716619427012670000000000000_00000975655658146122477000000000000_00000869870064628429416000000000000_00000783987688034517583000000000000_00000713017415330332354000000000000_00000653475598163480246000000000000_00000602865692765083395000000000000_00000559356823271720089000000000000_00000521578782909335307000000000000_00000488487551500540240000000000000_00000459274829595961988000000000000_00000433305800157120384000000000000_00000410075436739148737000000000000_00000389177266957120281000000000000_00000370280668079800759000000000000_00000353114113727208905000000000000_00000337452640401597333000000000000_00000323108351778101806000000000000_00000309923140394790930000000000000_00000297763048792809403000000000000,
  03448667906871042690000000000000000_00260232138370876042000000000000000_00058113085964935544800000000000000_00020981950715848393200000000000000_00010096210199656046800000000000000_00005853197834956476300000000000000_00003847083015836538270000000000000_00002758212032605762380000000000000_00002103750008606628900000000000000_00001678793164457102810000000000000_00001385862859788334790000000000000_00001174199975763340640000000000000_00001015372656596810650000000000000_00000892472427230403942000000000000_00000794929936344088808000000000000_00000715855134734821309000000000000_00000650593091007615637000000000000_00000595900880891847109000000000000_00000549458367858766261000000000000_00000509566608734501325000000000000_00000474955860997471025000000000000_00000444659842834649837000000000000_00000417931277758409758000000000000_00000394183873003750374000000000000_00000372951640583131319000000000000_00000353859849476856095000000000000_00000336603935442479295000000000000_00000320933954770641551000000000000_00000306642964917147812000000000000_00000293558229151400841000000000000_00000281534480640432989000000000000_00000270448707847536225000000000000,
  03422931803057058760000000000000000_00254524080897785369000000000000000_00056064412213926962400000000000000_00020000965824097014900000000000000_00009529674756861514380000000000000_00005481936849628269970000000000000_00003581506441729564010000000000000_00002556004829533546290000000000000_00001942608463900625560000000000000_00001545912302953419610000000000000_00001273374233535832890000000000000_00001076995513247587970000000000000_00000929983416265650108000000000000_00000816452714918391108000000000000_00000726500319109085678000000000000_00000653685837867811404000000000000_00000593667309490100125000000000000_00000543425536301380020000000000000_00000500804085359215587000000000000_00000464226278474340661000000000000_00000432515360728692084000000000000_00000404776922622504747000000000000_00000380320048211409873000000000000_00000358603219610345704000000000000_00000339196439921748973000000000000_00000321754218614245359000000000000_00000305995979297888168000000000000_00000291691632541288138000000000000_00000278650803211644459000000000000_00000266714683308128532000000000000_00000255749797645132206000000000000_00000245643181314794978000000000000,
  03397756422789120000000000000000000_00249016078772843527000000000000000_00054111065061770775800000000000000_00019074821605176900600000000000000_00008998970570425755400000000000000_00005136248798189982930000000000000_00003335366566297189810000000000000_00002369265726721723290000000000000_00001794208413410133720000000000000_00001423808202170900180000000000000_00001170191497264637690000000000000_00000987961026772747113000000000000_00000851864127744496530000000000000_00000746974390820910476000000000000_00000664011549537981769000000000000_00000596954666040694155000000000000_00000541753174177462355000000000000_00000495595828632957863000000000000_00000456478126743051060000000000000_00000422936706694474885000000000000_00000393880888429153656000000000000_00000368482716702005081000000000000_00000346103333804278509000000000000_00000326242539907683978000000000000_00000308503521853905600000000000000_00000292567727381863500000000000000_00000278176663090221156000000000000_00000265118504803947828000000000000_00000253218109247727924000000000000_00000242329466814151535000000000000_00000232329931146096307000000000000_00000223115758931164995000000000000,
  03373122228172486170000000000000000_00243698867672608773000000000000000_00052247735415024725400000000000000_00018200059622075255000000000000000_00008501635004640701270000000000000_00004814265271831971290000000000000_00003107178528961346130000000000000_00002196772941015390730000000000000_00001657517378604764730000000000000_00001311589938101151660000000000000_00001075532937205563320000000000000_00000906401260205197257000000000000_00000780389470596697776000000000000_00000683469744524082375000000000000_00000606944116787327283000000000000_00000545182977996187218000000000000_00000494407103434543198000000000000_00000451998559627160720000000000000_00000416093862062718665000000000000_00000385334681582281376000000000000_00000358710021103178699000000000000_00000335453374981537611000000000000_00000314973973458044177000000000000_00000296809747472962344000000000000_00000280594481213342215000000000000_00000266034441229613110000000000000_00000252891464653997173000000000000_00000240970531607010330000000000000_00000230110503471047866000000000000_00000220177130968450777000000000000_00000211057712800977408000000000000_00000202656970316993790000000000000,
  03349010581765592830000000000000000_00238563697293574833000000000000000_00050469448016084238400000000000000_00017373458601776859300000000000000_00008035385039778060930000000000000_00004514260407318384730000000000000_00002895574630354076430000000000000_00002037403609932702250000000000000_00001531588178103240830000000000000_00001208441383729280860000000000000_00000988683331093655305000000000000_00000831680735530114238000000000000_00000714988375831961814000000000000_00000625420695732420234000000000000_00000554824223516441730000000000000_00000497934487602260579000000000000_00000451224961437493990000000000000_00000412257433706581399000000000000_00000379299323156084776000000000000_00000351089664373569618000000000000_00000326691232501718072000000000000_00000305394348358948490000000000000_00000286652665992115929000000000000_00000270039308150003910000000000000_00000255216273393215835000000000000_00000241912695765886703000000000000_00000229909130608218555000000000000_00000219026019049315809000000000000_00000209115099440514815000000000000_00000200052929468870169000000000000_00000191735941651298419000000000000_00000184076627513145821000000000000,
  03325403696808446350000000000000000_00233602299125055444000000000000000_00048771538601585020500000000000000_00016592017167272257700000000000000_00007598103587200476150000000000000_00004234639651559524130000000000000_00002699294854541952300000000000000_00001890125625097629380000000000000_00001415551770690520990000000000000_00001113614849935198180000000000000_00000908988233528853710000000000000_00000763218568411752480000000000000_00000655139284564173545000000000000_00000572354428270795487000000000000_00000507219741595241933000000000000_00000454811498141054462000000000000_00000411838535895327157000000000000_00000376029750132869963000000000000_00000345774086055732816000000000000_00000319900841648103626000000000000_00000297541098001197093000000000000_00000278037731365495643000000000000_00000260885437750511968000000000000_00000245689821557323653000000000000_00000232138900037687957000000000000_00000219982878111807548000000000000_00000209019545848108608000000000000_00000199083570231740388000000000000_00000190038530287794269000000000000_00000181770915052481030000000000000_00000174185546157559020000000000000_00000167202048095215319000000000000,
  03302284590562344360000000000000000_00228806856422123442000000000000000_00047149632721014134300000000000000_00015852937883423880400000000000000_00007187826881958358960000000000000_00003973929434295724790000000000000_00002517178173158762430000000000000_00001753990150506744300000000000000_00001308610706516275750000000000000_00001026425272709020420000000000000_00000835848756785041275000000000000_00000700483736716602299000000000000_00000600365823660767999000000000000_00000523839410260583771000000000000_00000463736527310345009000000000000_00000415451472793973027000000000000_00000375912331447664593000000000000_00000343003392639315131000000000000_00000315226434625641383000000000000_00000291494444262634548000000000000_00000271001752949719006000000000000_00000253139846331367055000000000000_00000237441340866804838000000000000_00000223541823280515557000000000000_00000211153306278988715000000000000_00000200045411382198150000000000000_00000190031798383702219000000000000_00000180960224345098883000000000000_00000172705156612058671000000000000_00000165162211327816013000000000000_00000158243915595441047000000000000_00000151876442191327095000000000000,
  03279637040549002680000000000000000_00224169976218977002000000000000000_00045599626089383052400000000000000_00015153612513354576700000000000000_00006802732865859150300000000000000_00003730767674026980160000000000000_00002348154565914954750000000000000_00001628124767462737630000000000000_00001210033134246754930000000000000_00000946244899332629555000000000000_00000768716803793254738000000000000_00000642990762172596378000000000000_00000550232861508991391000000000000_00000479481766149749480000000000000_00000424015063979780382000000000000_00000379523911196930732000000000000_00000343140650353863720000000000000_00000312894089708154822000000000000_00000287390779989518930000000000000_00000265621308744777947000000000000_00000246838581445746409000000000000_00000230479047077887697000000000000_00000216110361124022507000000000000_00000203395787578258249000000000000_00000192069470153403788000000000000_00000181918923669749537000000000000_00000172772421590327672000000000000_00000164489766599241388000000000000_00000156955439110947530000000000000_00000150073443656545675000000000000_00000143763385191626881000000000000_00000137957448270602558000000000000,
  03257445543492518620000000000000000_00219684663235217763000000000000000_00044117666357726862400000000000000_00014491608390360715300000000000000_00006441130481164140650000000000000_00003503895048593347320000000000000_00002191237697515614520000000000000_00001511727193000490760000000000000_00001119147316467002420000000000000_00000872498430313737539000000000000_00000707090713828735654000000000000_00000590295768858629945000000000000_00000504342910300862377000000000000_00000438921969339583369000000000000_00000387727402761690905000000000000_00000346727504648196668000000000000_00000313244934648538592000000000000_00000285442921088246486000000000000_00000262025312621141990000000000000_00000242054659168008653000000000000_00000224838114611933237000000000000_00000209853722148211971000000000000_00000196701516289012783000000000000_00000185070312277692544000000000000_00000174714666605123246000000000000_00000165438584618602262000000000000_00000157083797584661473000000000000_00000149521193289954900000000000000_00000142644460787283375000000000000_00000136365314431042352000000000000_00000130609860819984675000000000000_00000125315803967793217000000000000,
  03235695276781786500000000000000000_00215344295538687211000000000000000_00042700136194305553100000000000000_00013864655818003295300000000000000_00006101449801636315430000000000000_00003292146967549900200000000000000_00002045518196104704430000000000000_00001404059523192188110000000000000_00001035336609760299060000000000000_00000804658577629783211000000000000_00000650511284899169679000000000000_00000541992885426948495000000000000_00000462332844222765304000000000000_00000401831826939386451000000000000_00000354574375059006556000000000000_00000316787545015523619000000000000_00000285971346266859757000000000000_00000260414048355202410000000000000_00000238909866063583235000000000000_00000220588089524949591000000000000_00000204806119332979882000000000000_00000191080479411589288000000000000_00000179041127548000236000000000000_00000168400469212111653000000000000_00000158931890099394124000000000000_00000150454594226131750000000000000_00000142822706936958894000000000000_00000135917317745365705000000000000_00000129640584967785195000000000000_00000123911309445694686000000000000_00000118661570387843374000000000000_00000113834139478674001000000000000,
  03214372062284094960000000000000000_00211142601838795319000000000000000_00041343637577761832300000000000000_00013270636418052832500000000000000_00005782232933681823740000000000000_00003094446188732257020000000000000_00001910157483003205280000000000000_00001304442956883918530000000000000_00000958034869661359935000000000000_00000742242003278750785000000000000_00000598558139992773550000000000000_00000497710960884351158000000000000_00000423870905653550637000000000000_00000367911730719253880000000000000_00000324283052303536040000000000000_00000289453564631344618000000000000_00000261088563760893171000000000000_00000237592649322589979000000000000_00000217843973150298837000000000000_00000201033728431246711000000000000_00000186565860158718077000000000000_00000173992495532982514000000000000_00000162971248257377708000000000000_00000153236305077361177000000000000_00000144578421330912391000000000000_00000136830809921618436000000000000_00000129859011289239032000000000000_00000123553504205497482000000000000_00000117824236637911483000000000000_00000112596523286503130000000000000_00000107807930230103798000000000000_00000103405882212514783000000000000,
  03193462332352761950000000000000000_00207073640293759350000000000000000_00040044977211195459600000000000000_00012707572352409696600000000000000_00005482125625844149710000000000000_00002909796026216193300000000000000_00001784382107760399720000000000000_00001212252959221897780000000000000_00000886722244120811436000000000000_00000684805605271806742000000000000_00000550846407227036203000000000000_00000457110566422064265000000000000_00000388653973950617371000000000000_00000336888150642692448000000000000_00000296604431070436722000000000000_00000264497186504850282000000000000_00000238385776154700530000000000000_00000216783037937477073000000000000_00000198645097334008244000000000000_00000183220569642229510000000000000_00000169956518647985734000000000000_00000158438015305158735000000000000_00000148348235665834741000000000000_00000139441478967181349000000000000_00000131524524843477455000000000000_00000124443499250806800000000000000_00000118074456683323131000000000000_00000112316517879750347000000000000_00000107086795747941463000000000000_00000102316592776928103000000000000_00000097948515907193994200000000000_00000093934262433172926400000000000,
  03172953097882878170000000000000000_00203131778723915404000000000000000_00038801152973201817000000000000000_00012173616351039180600000000000000_00005199869529966435730000000000000_00002737274101275644520000000000000_00001667478546425270680000000000000_00001126914827803246910000000000000_00000820921322259669010000000000000_00000631943121065160646000000000000_00000507023686566678538000000000000_00000419881258211691167000000000000_00000356405073658399344000000000000_00000308511349465520289000000000000_00000271311323446870559000000000000_00000241710166035985841000000000000_00000217670856238313718000000000000_00000197806952952979846000000000000_00000181147023304899201000000000000_00000166992953364320728000000000000_00000154831755859656493000000000000_00000144278987208208277000000000000_00000135041452574044156000000000000_00000126892024104751277000000000000_00000119652265584964290000000000000_00000113180206658037380000000000000_00000107361586523207646000000000000_00000102103480508470396000000000000_00000097329592190256710300000000000_00000092976728528638808000000000000_00000088992127781527088900000000000_00000085331410568928547200000000000,
  03152831918279604790000000000000000_00199311676131329994000000000000000_00037609341328442980900000000000000_00011667042483393925400000000000000_00004934295061972569230000000000000_00002576026591972293630000000000000_00001558788424500275070000000000000_00001047899627462828620000000000000_00000760193608060224402000000000000_00000583282021040058930000000000000_00000466767278175331387000000000000_00000385739078296903506000000000000_00000326871101027714993000000000000_00000282553298803923486000000000000_00000248196434374370277000000000000_00000220902607105433815000000000000_00000198768697194782564000000000000_00000180502000179553220000000000000_00000165198392512245504000000000000_00000152209184706468349000000000000_00000141058404997555814000000000000_00000131389822804361052000000000000_00000122932087088395032000000000000_00000115475222429550171000000000000_00000108854433518859133000000000000_00000102938723913494541000000000000_00000097622754113755560700000000000_00000092820921736592466700000000000_00000088462993096310248500000000000_00000084490835563215216300000000000_00000080855942635367975900000000000_00000077517537732060935700000000000,
  03133086873213071690000000000000000_00195608265433377911000000000000000_00036466885626319288400000000000000_00011186237615785707700000000000000_00004684314814467177230000000000000_00002425262940698717290000000000000_00001457704129291298240000000000000_00000974720462610109920000000000000_00000704136291257908150000000000000_00000538480667022457511000000000000_00000429781649650098395000000000000_00000354424272726684244000000000000_00000299820749605538701000000000000_00000258805778819584321000000000000_00000227070609318978642000000000000_00000201901336951578890000000000000_00000181519697904614199000000000000_00000164720234489196887000000000000_00000150661370506048291000000000000_00000138740276856166773000000000000_00000128515282397836611000000000000_00000119656268705386417000000000000_00000111912079706656096000000000000_00000105088581735900370000000000000_00000099033566410137436300000000000_00000093626154691975999400000000000_00000088769225641603598800000000000_00000084383917498742021900000000000_00000080405573962855800800000000000_00000076780714803603891300000000000_00000073464743399219449700000000000_00000070420191770454252900000000000,
  03113706536042808100000000000000000_00192016737324816015000000000000000_00035371285221830825800000000000000_00010729693501750954500000000000000_00004448917477251112010000000000000_00002284250982374774170000000000000_00001363664779341595630000000000000_00000906929058682226950000000000000_00000652379290089181336000000000000_00000497225713007865192000000000000_00000395796121380294570000000000000_00000325699207913427121000000000000_00000275042617359268961000000000000_00000237078645258830705000000000000_00000207761237111096446000000000000_00000184548425644020391000000000000_00000165778383591108983000000000000_00000150326868994933939000000000000_00000137410434199630943000000000000_00000126468807691214708000000000000_00000117092106121525124000000000000_00000108974380876164412000000000000_00000101883147955950808000000000000_00000095638906001797515200000000000_00000090101061808383741000000000000_00000085158064680378808500000000000_00000080720365303126705400000000000_00000076715307424509183700000000000_00000073083365898724598500000000000_00000069775337990039228600000000000_00000066750219791583202400000000000_00000063973581882586959000000000000,
  03094679948802863420000000000000000_00188532525189215975000000000000000_00034320185357800396500000000000000_00010295999456663448700000000000000_00004227162225422116940000000000000_00002152312459090099340000000000000_00001276152521357906670000000000000_00000844112626703131920000000000000_00000604582542733265581000000000000_00000459229727240493390000000000000_00000364562751088289704000000000000_00000299346467873942714000000000000_00000252343479352393850000000000000_00000217198249029781888000000000000_00000190110794151383397000000000000_00000168699837235896050000000000000_00000151412149670204530000000000000_00000137199099963129647000000000000_00000125331268230982583000000000000_00000115287879562495872000000000000_00000106688512391214373000000000000_00000099249591970632075200000000000_00000092755899696082680300000000000_00000087041450402579105900000000000_00000081976370073158213500000000000_00000077457709381910316100000000000_00000073402895046097734600000000000_00000069744984007424186300000000000_00000066429171993104083500000000000_00000063410189261311553800000000000_00000060650333335119414300000000000_00000058117965470784207200000000000,
  03075996598646393780000000000000000_00185151290986464714000000000000000_00033311367752308109800000000000000_00009883835571714519810000000000000_00004018173538007356530000000000000_00002028818889818475220000000000000_00001194689127525524530000000000000_00000785890987153752932000000000000_00000560433526278721311000000000000_00000424229016605948318000000000000_00000335854400267078183000000000000_00000275167116537898894000000000000_00000231546711403141828000000000000_00000199005994819218403000000000000_00000173975517412010644000000000000_00000154224200835469184000000000000_00000138300117760242440000000000000_00000125225037048703634000000000000_00000114319760579825721000000000000_00000105100172914098281000000000000_00000097213160998211611100000000000_00000090395863243804569200000000000_00000084449027012293751000000000000_00000079219153281548107600000000000_00000074586261033327762000000000000_00000070455332503225309100000000000_00000066750222083431961300000000000_00000063409246948335767400000000000_00000060381946450538975800000000000_00000057626667265132615300000000000_00000055108740817066511600000000000_00000052799091491658855400000000000,
  03057646395655545560000000000000000_00181868912048437922000000000000000_00032342741839495552500000000000000_00009491966425933885700000000000000_00003821136413080280780000000000000_00001913187766424645500000000000000_00001118832868385870100000000000000_00000731913931382608846000000000000_00000519644983866110116000000000000_00000391981635948535074000000000000_00000309462966740100219000000000000_00000252979110699620350000000000000_00000212490851446594364000000000000_00000182357026450974785000000000000_00000159224194784990266000000000000_00000141001690891442558000000000000_00000126332093800371224000000000000_00000114302729382367123000000000000_00000104281088487759916000000000000_00000095817085253490128300000000000_00000088582921612954302100000000000_00000082334913353728789100000000000_00000076888573358443762100000000000_00000072101938056040867000000000000_00000067864157550323691700000000000_00000064087528462939176500000000000_00000060701827965560432900000000000_00000057650216689655965200000000000_00000054886230722773533100000000000_00000052371542226762420100000000000_00000050074270808958336800000000000_00000047967695092736655700000000000,
  03039619651929003880000000000000000_00178681468719935143000000000000000_00031412336615864646300000000000000_00009119235258189222940000000000000_00003635291948071654050000000000000_00001804879049561084980000000000000_00001048175638533264300000000000000_00000681858800636823184000000000000_00000481952842320347413000000000000_00000362265566431733192000000000000_00000285197768946852289000000000000_00000232615850457497431000000000000_00000195028286495058774000000000000_00000167119027780589860000000000000_00000145737062351146145000000000000_00000128923006945693909000000000000_00000115407619130004085000000000000_00000104339278893158416000000000000_00000095128886538476635900000000000_00000087357947753952575600000000000_00000080722133664571100200000000000_00000074995517067116080200000000000_00000070007267281149982700000000000_00000065626078679135734100000000000_00000061749529871349279800000000000_00000058296663152333703900000000000_00000055202713568386891600000000000_00000052415301706944912300000000000_00000049891641398560496200000000000_00000047596462918323914000000000000_00000045500448357333481300000000000_00000043579038805347095100000000000,
  03021907061865632240000000000000000_00175585232786567235000000000000000_00030518293047850343900000000000000_00008764558564103251630000000000000_00003459933256514358730000000000000_00001703391940229851010000000000000_00000982340314293754060000000000000_00000635428264485058810000000000000_00000447114304104656448000000000000_00000334877048436242347000000000000_00000262884068814698450000000000000_00000213924855141446291000000000000_00000179024054161481014000000000000_00000153171128916350820000000000000_00000133404799073586098000000000000_00000117888443980128231000000000000_00000105435106203964182000000000000_00000095250033026455043000000000000_00000086784489491286933500000000000_00000079649312471036354100000000000_00000073561933121780614100000000000_00000068312867518442670200000000000_00000063743916663793230800000000000_00000059733622860168845200000000000_00000056187345218147934500000000000_00000053030347617061484900000000000_00000050202894871764213900000000000_00000047656714623704191000000000000_00000045352405094647631000000000000_00000043257508937158355700000000000_00000041345063407939054500000000000_00000039592496000493667100000000000,
  03004499683568245190000000000000000_00172576656635538440000000000000000_00029658856999812585400000000000000_00008426921085585436360000000000000_00003294401694782857500000000000000_00001608261904779849620000000000000_00000920978324293219062000000000000_00000592348281950316879000000000000_00000414906098814851670000000000000_00000309629055745755419000000000000_00000242361721223736715000000000000_00000196766553782881431000000000000_00000164354748685628666000000000000_00000140402908463470261000000000000_00000122127610266515111000000000000_00000107807045278885294000000000000_00000096331051366040803900000000000_00000086957849724311058300000000000_00000079176243130721432600000000000_00000072624303790825223600000000000_00000067039640112979862400000000000_00000062227996250335646300000000000_00000058042857982074636500000000000_00000054371867776840490200000000000_00000051127567565239593300000000000_00000048240959817264710200000000000_00000045656944873802649600000000000_00000043331032668690018100000000000_00000041226936028828556300000000000_00000039314784124534114500000000000_00000037569778935125209100000000000_00000035971172710707105900000000000,
  02987388921296762200000000000000000_00169652363099193604000000000000000_00028832372644694661700000000000000_00008105371163211280830000000000000_00003138083374518420440000000000000_00001519057932938126020000000000000_00000863767415418444331000000000000_00000552366230084375585000000000000_00000385122880699481123000000000000_00000286349898916841653000000000000_00000223483939117342352000000000000_00000181013180142580874000000000000_00000150907522291170119000000000000_00000128713483313891305000000000000_00000111814391961380639000000000000_00000098595830450299574800000000000_00000088019317784347773300000000000_00000079392428177767642800000000000_00000072238877003812584800000000000_00000066222028306039751800000000000_00000061098201873908199700000000000_00000056687245788378987500000000000_00000052853455565086957700000000000_00000049492883492849266400000000000_00000046524703023247131500000000000_00000043885210067292240700000000000_00000041523577413473765400000000000_00000039398798406780883900000000000_00000037477452353305830200000000000_00000035732047339981040500000000000_00000034139775119552010300000000000_00000032681564280562876300000000000,
  02970566508904820490000000000000000_00166809135934831482000000000000000_00028037276322453614100000000000000_00007799016424013930100000000000000_00002990405938386370570000000000000_00001435380010149282060000000000000_00000810409598136066753000000000000_00000515249186008356927000000000000_00000357575759848608957000000000000_00000264881946775631336000000000000_00000206116164264993310000000000000_00000166547763187907024000000000000_00000138579173511334105000000000000_00000118010678256361694000000000000_00000102381968994474789000000000000_00000090179091911216540000000000000_00000080430482271213385500000000000_00000072489699445501530600000000000_00000065912933470361746700000000000_00000060387037841756749900000000000_00000055685686011707796000000000000_00000051641789980893548100000000000_00000048129646312264499500000000000_00000045053079732122921300000000000_00000042337386662340608100000000000_00000039923746159245804500000000000_00000037765269061877615100000000000_00000035824157048280849600000000000_00000034069627687378216200000000000_00000032476377155081115000000000000_00000031023426254475915900000000000_00000029693243634995303100000000000,
  02954024494198404110000000000000000_00164043910897640962000000000000000_00027272090814003116200000000000000_00007507019779397154740000000000000_00002850835578606293760000000000000_00001356856787032769350000000000000_00000760629256471870410000000000000_00000480782349625973324000000000000_00000332090955751266909000000000000_00000245080455939152331000000000000_00000190135034554283267000000000000_00000153263204709619617000000000000_00000127275314858580872000000000000_00000108210268366540350000000000000_00000093754400279432997500000000000_00000082487753735375635200000000000_00000073501240273880510800000000000_00000066191271565070075700000000000_00000060144247995036508500000000000_00000055068840830530851100000000000_00000050754819529105983300000000000_00000047047197768141656700000000000_00000043829525731294208000000000000_00000041012812057857992400000000000_00000038528006991807230400000000000_00000036320794540653266500000000000_00000034347915594806727400000000000_00000032574526980997836600000000000_00000030972274616004751100000000000_00000029517867346970851100000000000_00000028192007366915817800000000000_00000026978578250837188300000000000,
  02937755224159203950000000000000000_00161353767366719934000000000000000_00026535420000838387700000000000000_00007228595709851142360000000000000_00002718874279343782920000000000000_00001283143430175434010000000000000_00000714171409177397072000000000000_00000448767595296978823000000000000_00000308508562887556868000000000000_00000226812499131171395000000000000_00000175427439483027976000000000000_00000141061436496837370000000000000_00000116909612886050118000000000000_00000099235287760994813100000000000_00000085862345310203988800000000000_00000075458787312899358300000000000_00000067173863835095206000000000000_00000060443924266867826500000000000_00000054883476068089372000000000000_00000050221457671327440000000000000_00000046262569465968285900000000000_00000042863036439755624400000000000_00000039914971538920027100000000000_00000037336023865398564000000000000_00000035062364657834349000000000000_00000033043834249051414500000000000_00000031240519879146966100000000000_00000029620300477672629000000000000_00000028157057218178419800000000000_00000026829350359067174200000000000_00000025619427817792083600000000000_00000024512473185943392500000000000,
  02921751330979281790000000000000000_00158735920487006025000000000000000_00025825943882752562000000000000000_00006963006814966949820000000000000_00002594057265565093220000000000000_00001213919639767114430000000000000_00000670800109731919848000000000000_00000419022141746957854000000000000_00000286681418903990995000000000000_00000209955983858527902000000000000_00000161889656246798730000000000000_00000129852650152817382000000000000_00000107403094301297080000000000000_00000091015398867472472900000000000_00000078642486470153438100000000000_00000069034678764321532500000000000_00000061395707789295326000000000000_00000055199148841076752800000000000_00000050085662557975697900000000000_00000045803016101856919300000000000_00000042169761391385127400000000000_00000039052510797600908500000000000_00000036351301409016606500000000000_00000033989920925805097100000000000_00000031909362235973155300000000000_00000030063300608247342400000000000_00000028414908296178312900000000000_00000026934571811223754200000000000_00000025598229959042009300000000000_00000024386146157307664300000000000_00000023281989397294494000000000000_00000022272137764349490500000000000,
  02906005718857194520000000000000000_00156187713792602838000000000000000_00025142413928119719400000000000000_00006709560608914885140000000000000_00002475950642345293690000000000000_00001148887820770210200000000000000_00000630296973854332198000000000000_00000391377330393794903000000000000_00000266474066727160761000000000000_00000194398753740860192000000000000_00000149426559478204853000000000000_00000119554593239815512000000000000_00000098683512351291581000000000000_00000083486316881750330400000000000_00000072037002205673416300000000000_00000063162943504451381400000000000_00000056118759884745131400000000000_00000050412729108325589200000000000_00000045709849677938830300000000000_00000041775382973225986100000000000_00000038440732321187101100000000000_00000035582134967039664900000000000_00000033106961763493129800000000000_00000030944675514809540900000000000_00000029040722280339518400000000000_00000027352315965317366900000000000_00000025845473088680233000000000000_00000024492890264425751000000000000_00000023272400524821662600000000000_00000022165834146940935000000000000_00000021158166660633429400000000000_00000020236873737468054600000000000,
  02890511551509061420000000000000000_00153706612279441229000000000000000_00024483648733125391700000000000000_00006467606543088331680000000000000_00002364149209896382930000000000000_00001087771395398995950000000000000_00000592459824139501743000000000000_00000365677503098255321000000000000_00000247761802707846127000000000000_00000180037765450375613000000000000_00000137950898297383725000000000000_00000110091925993549766000000000000_00000090684768206666063000000000000_00000076589284553208986600000000000_00000065993086562251064400000000000_00000057795683762710544600000000000_00000051299230908388524300000000000_00000046044359809069078400000000000_00000041718720093143357300000000000_00000038103829142552212300000000000_00000035043014946447534800000000000_00000032421433895639696700000000000_00000030153244784371507000000000000_00000028173157432467829200000000000_00000026430731051046029000000000000_00000024886444996538978400000000000_00000023508938258359854900000000000_00000022273035751422855500000000000_00000021158314402230554500000000000_00000020148046029830796700000000000_00000019228407457111403100000000000_00000018387882942418774500000000000,
  02875262240351148830000000000000000_00151290195897487991000000000000000_00023848529968083524600000000000000_00006236533239028453520000000000000_00002258274440753798360000000000000_00001030313245679325230000000000000_00000557101442294503767000000000000_00000341778971102712792000000000000_00000230429803561246630000000000000_00000166778334824430884000000000000_00000127382634883535836000000000000_00000101395633351434033000000000000_00000083346382537156676600000000000_00000070270592871153210500000000000_00000060462510981270040500000000000_00000052889185241043434700000000000_00000046897181241860029500000000000_00000042057299058125003100000000000_00000038078272008282589100000000000_00000034756724496286835800000000000_00000031947050340956878100000000000_00000029542671847485583500000000000_00000027464031082361798700000000000_00000025650689464698685600000000000_00000024056005577043805700000000000_00000022643472336744240300000000000_00000021384146857734228500000000000_00000020254814978047799800000000000_00000019236659206085425100000000000_00000018314277677361227100000000000_00000017474951794068762300000000000_00000016708092661115188600000000000,
  02860251433313418370000000000000000_00148936153434818221000000000000000_00023235998590601360600000000000000_00006015765916046784590000000000000_00002157972606636403820000000000000_00000976274275771827900000000000000_00000524048420238623342000000000000_00000319549067614248162000000000000_00000214372325484644985000000000000_00000154533446267209688000000000000_00000117648339279606528000000000000_00000093402487498083248100000000000_00000076613012893092498800000000000_00000064481143615561132300000000000_00000055401224620396450100000000000_00000048403549431404079300000000000_00000042876180597134777500000000000_00000038418051812339006600000000000_00000034757523360589922000000000000_00000031705260387150436700000000000_00000029125926572412932300000000000_00000026920605445853723600000000000_00000025015555690790176300000000000_00000023354825061303083600000000000_00000021895281925661781300000000000_00000020603200492129612100000000000_00000019451867718232889800000000000_00000018419876258218980800000000000_00000017489886942370063300000000000_00000016647718271174733200000000000_00000015881667348477631700000000000_00000015181997049406083400000000000,
  02845473004246154780000000000000000_00146642276767815596000000000000000_00022645051306851266300000000000000_00005804763999161036630000000000000_00002062913043484280180000000000000_00000925432084578675291000000000000_00000493140102053258106000000000000_00000298865277121656413000000000000_00000199491969396527074000000000000_00000143223120062306150000000000000_00000108680635600597727000000000000_00000086054556550532541400000000000_00000070434012893300386400000000000_00000059176050092798386800000000000_00000050768989792439973700000000000_00000044302358425182385700000000000_00000039202997971568711400000000000_00000035096081573687964900000000000_00000031728242502415351400000000000_00000028923197013255002500000000000_00000026555140875501244400000000000_00000024532259039346910600000000000_00000022786195265963721600000000000_00000021265146208048789600000000000_00000019929222744642894700000000000_00000018747266183261901300000000000_00000017694619835780206800000000000_00000016751541276501546600000000000_00000015902052560585778800000000000_00000015133095124802496700000000000_00000014433900094387956300000000000_00000013795513155950741200000000000,
  02830921042884271660000000000000000_00144406455453568872000000000000000_00022074737263591063600000000000000_00005603018894062936130000000000000_00001972786544087693010000000000000_00000877579739921809556000000000000_00000464227609429496699000000000000_00000279614435115392208000000000000_00000185699006755567005000000000000_00000132773832679738228000000000000_00000100417695234349822000000000000_00000079298755387733492000000000000_00000064763029571229617200000000000_00000054314272701988296500000000000_00000046529049419995621900000000000_00000040552369329495062000000000000_00000035847319127172301300000000000_00000032063547799740618600000000000_00000028964702993324073100000000000_00000026386633491388820700000000000_00000024212383257265009600000000000_00000022356720368678345600000000000_00000020756274567928522700000000000_00000019363079654847637900000000000_00000018140242319187202200000000000_00000017058973434612402400000000000_00000016096512798135852400000000000_00000015234652243848487600000000000_00000014458667300504949100000000000_00000013756532745255728600000000000_00000013118338655526437300000000000_00000012535850187007288600000000000,
  02816589845336201930000000000000000_00142226671642204049000000000000000_00021524154954851030100000000000000_00005410051916853201880000000000000_00001887303868556093950000000000000_00000832524646285004672000000000000_00000437172943867338302000000000000_00000261691992409780045000000000000_00000172910760888128670000000000000_00000123117985582648200000000000000_00000092802773005482968700000000000_00000073086434977443905100000000000_00000059557635551487716900000000000_00000049858286274012116200000000000_00000042647823678614854300000000000_00000037123235662529179500000000000_00000032781489140234926400000000000_00000029295066720505027700000000000_00000026443460336157724700000000000_00000024073798579600141000000000000_00000022077339598113761400000000000_00000020374954694995515000000000000_00000018907890470861319400000000000_00000017631729829646785300000000000_00000016512347547052822700000000000_00000015523141881001782300000000000_00000014643101786330195800000000000_00000013855433036047846100000000000_00000013146565475801945300000000000_00000012505424826209992800000000000_00000011922891120436189700000000000_00000011391390797214876100000000000,
  02802473905066427410000000000000000_00140100995288440128000000000000000_00020992449328384776800000000000000_00005225412367214951760000000000000_00001806194363643990690000000000000_00000790087498758553385000000000000_00000411848159435961936000000000000_00000245001338752132833000000000000_00000161051039182857199000000000000_00000114193418424186193000000000000_00000085783782621734457800000000000_00000067373006871578754900000000000_00000054778993021073142400000000000_00000045773776395099002200000000000_00000039094633252141227200000000000_00000033987253334362353700000000000_00000029980277787019222500000000000_00000026767493467339291300000000000_00000024143148686601334000000000000_00000021964860188970042200000000000_00000020131512487249156400000000000_00000018569635717618344900000000000_00000017224751911637015900000000000_00000016055726919940859900000000000_00000015030993380618595100000000000_00000014125968901273132200000000000_00000013321255817004061400000000000_00000012601363033818336900000000000_00000011953783461758000600000000000_00000011368317984767876000000000000_00000010836573173822808500000000000_00000010351583298917140200000000000,
  02788567904342700530000000000000000_00138027579643091461000000000000000_00020478809078070365200000000000000_00005048675734559347470000000000000_00001729204682656555700000000000000_00000750101316418613577000000000000_00000388134600413452587000000000000_00000229453180847617651000000000000_00000150049611904022657000000000000_00000105942962876998915000000000000_00000079312908040097639100000000000_00000062117599831140759300000000000_00000050391546725902494000000000000_00000042029362172997785400000000000_00000035841446852372926900000000000_00000031119129032960781900000000000_00000027420665731127582000000000000_00000024459723607633817900000000000_00000022044295743276066400000000000_00000020041751992485513400000000000_00000018358058190788511900000000000_00000016924991760857519900000000000_00000015692034329894369900000000000_00000014621088742190077300000000000_00000013682951417323096500000000000_00000012854904316624982500000000000_00000012119038014597377300000000000_00000011461062501022470900000000000_00000010869449767486575000000000000_00000010334806163055826200000000000_00000009849406503331022990000000000_00000009406843784662639520000000000,
  02774866706120871600000000000000000_00136004657006570114000000000000000_00019982464109454366500000000000000_00004879442027472086540000000000000_00001656097598307026410000000000000_00000712410548917743658000000000000_00000365922198590878098000000000000_00000214964970335301384000000000000_00000139841733734718319000000000000_00000098314033659261979300000000000_00000073346247680623066800000000000_00000057282745806461635100000000000_00000046362743466046596200000000000_00000038596343127936169600000000000_00000032862650863382820200000000000_00000028495769029256605000000000000_00000025081649660082730800000000000_00000022352512350071719100000000000_00000020129154186825643400000000000_00000018288015591729498000000000000_00000016741638295891342000000000000_00000015426665847562645800000000000_00000014296247284506212000000000000_00000013315095145172181200000000000_00000012456190440285562300000000000_00000011698536506506152200000000000_00000011025596813262093900000000000_00000010424188444197251600000000000_00000009883685175959891860000000000_00000009395434715119940700000000000_00000008952326536804385100000000000_00000008548467250186296340000000000,
  02761365346341967060000000000000000_00134030534727675236000000000000000_00019502683166561578600000000000000_00004717334217521878790000000000000_00001586650901494949590000000000000_00000676870250562978465000000000000_00000345108825453183164000000000000_00000201460377623018990000000000000_00000130367704489713345000000000000_00000091258253614948394900000000000_00000067843488680914056600000000000_00000052834092739903167500000000000_00000042662775784494316300000000000_00000035448468094911066500000000000_00000030134839160456740700000000000_00000026096086592041531200000000000_00000022944064684276579100000000000_00000020428309840967823900000000000_00000018381548183334169900000000000_00000016688656841076424800000000000_00000015268284706057797500000000000_00000014061588402484454400000000000_00000013025114050953475800000000000_00000012126173807559052000000000000_00000011339767820295413100000000000_00000010646488899868218600000000000_00000010031067089130544100000000000_00000009481339993530529190000000000_00000008987512028494619810000000000_00000008541613289660358830000000000_00000008137098652076273470000000000_00000007768546889294307990000000000,
  02748059026617777680000000000000000_00132103591432100656000000000000000_00019038771608952785200000000000000_00004561996789167302370000000000000_00001520656379523417320000000000000_00000643345316616669207000000000000_00000325599694841313698000000000000_00000188868807829473159000000000000_00000121572465738368318000000000000_00000084731109974433896400000000000_00000062767608626452291700000000000_00000048740141878435661600000000000_00000039264347746153069800000000000_00000032561724210086075900000000000_00000027636621326359984800000000000_00000023900826364442461300000000000_00000020990422462196150700000000000_00000018671111113867144700000000000_00000016786733601024697000000000000_00000015230015055474876200000000000_00000013925276782667490700000000000_00000012817861442563978500000000000_00000011867462112798784200000000000_00000011043796393841775300000000000_00000010323730789736878500000000000_00000009689325894859167360000000000_00000009126480315085633200000000000_00000008623972433437605500000000000_00000008172771815145766230000000000_00000007765536700926553370000000000_00000007396242080318763650000000000_00000007059900808433087370000000000,
  02734943107282718820000000000000000_00130222273466153398000000000000000_00018590069328807748600000000000000_00004413094388121012940000000000000_00001457918867778553280000000000000_00000611709776976643237000000000000_00000307306812059314478000000000000_00000177124955393981744000000000000_00000113405230352964504000000000000_00000078691639166805952000000000000_00000058084602412944833800000000000_00000044972007484493806200000000000_00000036142460887899331600000000000_00000029914144223810081500000000000_00000025348447645019077300000000000_00000021892404200384841100000000000_00000019204763653069452200000000000_00000017066319383515254400000000000_00000015331270710741063100000000000_00000013899643942854655100000000000_00000012701029536850474800000000000_00000011684653214923708900000000000_00000010813123559249900300000000000_00000010058384127084473100000000000_00000009399026689309459770000000000_00000008818467346604378570000000000_00000008303682913302463260000000000_00000007844319090836141620000000000_00000007432050309453152870000000000_00000007060113054350387390000000000_00000006722960795676251310000000000_00000006416005478037131020000000000,
  02722013100791125630000000000000000_00128385091542160877000000000000000_00018155948798545641500000000000000_00004270310561104395080000000000000_00001398255369359232720000000000000_00000581846142779153891000000000000_00000290148465719606643000000000000_00000166168394199993132000000000000_00000105819142249286086000000000000_00000073102137779378844100000000000_00000053763232098734248900000000000_00000041503197016905059600000000000_00000033274218588386057000000000000_00000027485630537482050100000000000_00000023252449396084122200000000000_00000020054761092990923700000000000_00000017572523423004088300000000000_00000015600621492646365700000000000_00000014002908251301454500000000000_00000012686203206751030900000000000_00000011584991874917841600000000000_00000010652102337575450100000000000_00000009852844490599641110000000000_00000009161221922733579610000000000_00000008557421370445579220000000000_00000008026110841358557520000000000_00000007555262056332758070000000000_00000007135320361820953550000000000_00000006758609555901909560000000000_00000006418898460914003890000000000_00000006111080749004446570000000000_00000005830935300671664080000000000,
  02709264665440452000000000000000000_00126590617572958873000000000000000_00017735813240174976400000000000000_00004133346580455269170000000000000_00001341494237572652440000000000000_00000553644801823446263000000000000_00000274048758921765745000000000000_00000155943200320132371000000000000_00000098770963816348767500000000000_00000067927897464757341300000000000_00000049774797789638670100000000000_00000038309410021041594800000000000_00000030638647259431529700000000000_00000025257794502507771000000000000_00000021332293104466723000000000000_00000018373229948477244100000000000_00000016080408844423954300000000000_00000014261874426816287300000000000_00000012790477841422808900000000000_00000011579359859837475900000000000_00000010567553990726150300000000000_00000009711230583535057000000000000_00000008978202614947920870000000000_00000008344380305632453040000000000_00000007791425010869315370000000000_00000007305161046751145280000000000_00000006874478236083479670000000000_00000006490559223378620490000000000_00000006146326081948700140000000000_00000005836037735465138510000000000_00000005554992862631833070000000000_00000005299307733103732390000000000,
  02696693599402060050000000000000000_00124837481683701312000000000000000_00017329094908194084100000000000000_00004001920347539754670000000000000_00001287474416604933490000000000000_00000527003459043179723000000000000_00000258937176637187852000000000000_00000146397604730172347000000000000_00000092220788742632678100000000000_00000063136961783010933500000000000_00000046092927766920758000000000000_00000035368354120074840500000000000_00000028216532900463054000000000000_00000023213809648141527100000000000_00000019573047517967679100000000000_00000016834414069877005900000000000_00000014716287132151288000000000000_00000013039001909688571200000000000_00000011683797811452806900000000000_00000010569698375557152400000000000_00000009639963080324517520000000000_00000008853863526925271020000000000_00000008181532293799411550000000000_00000007600644403206210910000000000_00000007094224668470951310000000000_00000006649165492748020840000000000_00000006255203982334708270000000000_00000005904202636667600650000000000_00000005589634764120308860000000000_00000005306210529774918540000000000_00000005049601256713001380000000000_00000004816233451285820360000000000,
  02684295835042422830000000000000000_00123124369390021332000000000000000_00016935253478445238000000000000000_00003875765369370109380000000000000_00001236044736038209180000000000000_00000501826618549820043000000000000_00000244748186426156643000000000000_00000137483673558817923000000000000_00000086131778138736843700000000000_00000058699903137647738300000000000_00000042693386222821164200000000000_00000032659576638598110200000000000_00000025990271684860132400000000000_00000021338277622187966200000000000_00000017961062194553644000000000000_00000015426076315791285700000000000_00000013469083753748817000000000000_00000011921900179628684100000000000_00000010673585611431114500000000000_00000009648638883722274690000000000_00000008794246628778122270000000000_00000008072558340463181910000000000_00000007455856361564732780000000000_00000006923449372137950820000000000_00000006459622960214589030000000000_00000006052256196913266750000000000_00000005691868169026190690000000000_00000005370948302779011890000000000_00000005083477830047706720000000000_00000004824582401601542920000000000_00000004590276226453458020000000000_00000004377271094305288610000000000,
  02672067433518622770000000000000000_00121450018932305469000000000000000_00016553774535864270400000000000000_00003754629803246313440000000000000_00001187063255219169880000000000000_00000478025104048639653000000000000_00000231420869846935436000000000000_00000129157013641259276000000000000_00000080469918032565115800000000000_00000054589618120506835300000000000_00000039553897108507876200000000000_00000030164310517100400300000000000_00000023943733363220573400000000000_00000019617105735366261000000000000_00000016483856679656020600000000000_00000014137037991253091100000000000_00000012328689537563146900000000000_00000010901352128960329800000000000_00000009751378027779770380000000000_00000008808362687517950500000000000_00000008023142586851976200000000000_00000007360538098112474150000000000_00000006794824105289990690000000000_00000006306821674345135820000000000_00000005881982308716581380000000000_00000005509096601120722490000000000_00000005179405397940920620000000000_00000004885976281291463630000000000_00000004623258525844268480000000000_00000004386760366848486840000000000_00000004172811533709278660000000000_00000003978386166082245680000000000,
  02660004579633018020000000000000000_00119813218756523399000000000000000_00016184168154566290400000000000000_00003638275564623103690000000000000_00001140396653791134030000000000000_00000455515614681155677000000000000_00000218898582130367665000000000000_00000121376501328658980000000000000_00000075203796474384433600000000000_00000050781139723693022100000000000_00000036653982727550321700000000000_00000027865333291892183600000000000_00000022062136374548195600000000000_00000018037395097529486900000000000_00000015130019343907471500000000000_00000012957086611475963700000000000_00000011285875980054261000000000000_00000009968949060506321260000000000_00000008909458509872565950000000000_00000008041744444447507220000000000_00000007320035816887500080000000000_00000006711631995217892950000000000_00000006192654846658518780000000000_00000005745325671219957880000000000_00000005356174249945393720000000000_00000005014833335530360920000000000_00000004713209996103519230000000000_00000004444905026798929690000000000_00000004204799021414002390000000000_00000003988752523515669210000000000_00000003793385616615955120000000000_00000003615913712388422640000000000,
  02648103576932872460000000000000000_00118212805132688199000000000000000_00015825967564169990500000000000000_00003526477493758622450000000000000_00001095919664984533380000000000000_00000434220313580535306000000000000_00000207128637889691019000000000000_00000114104032674516684000000000000_00000070304398636649139400000000000_00000047251465007420796200000000000_00000033974815825186856900000000000_00000025746838021076538400000000000_00000020331933653033520100000000000_00000016587338422724485200000000000_00000013889115033783552100000000000_00000011876891755487208800000000000_00000010332218025147050900000000000_00000009117019382725140380000000000_00000008140790970471891950000000000_00000007342290412975467340000000000_00000006678900243269361270000000000_00000006120220951662244570000000000_00000005644086618958347440000000000_00000005234015053406968790000000000_00000004877533341665982110000000000_00000004565052369858195970000000000_00000004289094205623145570000000000_00000004043751439340052740000000000_00000003824302165486311020000000000_00000003626931373924562240000000000_00000003448526357354448140000000000_00000003286524425973741200000000000,
  02636360843041607880000000000000000_00116647659902610177000000000000000_00015478727896690825100000000000000_00003419022577028152360000000000000_00001053514548521202840000000000000_00000414066446640395720000000000000_00000196062020815330558000000000000_00000107304293273513936000000000000_00000065744918428532156300000000000_00000043979396932175413800000000000_00000031499084030683652900000000000_00000023794315133914796800000000000_00000018740708206290177900000000000_00000015256126661034165600000000000_00000012751600762391157800000000000_00000010887928296082357100000000000_00000009460023653127024950000000000_00000008338563625456173370000000000_00000007438959481109901010000000000_00000006704082220494868680000000000_00000006094246193868034220000000000_00000005581188111978190160000000000_00000005144329477751321770000000000_00000004768388667297662580000000000_00000004441815254208311330000000000_00000004155739152138272120000000000_00000003903250183237591730000000000_00000003678894561668586560000000000_00000003478316737782741410000000000_00000003298000506005927220000000000_00000003135079081259619520000000000_00000002987193864555508200000000000,
  02624772905209142750000000000000000_00115116708349154247000000000000000_00015142025008729685700000000000000_00003315709219088706970000000000000_00001013070600227852600000000000000_00000394985989194068596000000000000_00000185653115469686189000000000000_00000100944546170175922000000000000_00000061500585268716201600000000000_00000040945399172906403100000000000_00000029210865607864571100000000000_00000021994444269265199900000000000_00000017277077621367989500000000000_00000014033863688960101000000000000_00000011708748735790056500000000000_00000009982406355789570330000000000_00000008662269675595054550000000000_00000007627195213540673850000000000_00000006798113335439217040000000000_00000006121725657251824300000000000_00000005561072465215425930000000000_00000005089873800347501180000000000_00000004689023025834785720000000000_00000004344350339327014070000000000_00000004045158663265799340000000000_00000003783242371671698750000000000_00000003552215461813473670000000000_00000003347042589921257370000000000_00000003163705878059636800000000000_00000002998964325591660570000000000_00000002850177490526251630000000000_00000002715174495447013720000000000,
  02613336396069535660000000000000000_00113618917179719537000000000000000_00014815454374050969700000000000000_00003216346562359501810000000000000_00000974483695675226328000000000000_00000376915318482205645000000000000_00000175859459448606739000000000000_00000094994436384590456400000000000_00000057548504773154336500000000000_00000038131462832926809300000000000_00000027095515558230533400000000000_00000020334995249414525800000000000_00000015930606728270738600000000000_00000012911488357411363300000000000_00000010752576072339117500000000000_00000009153207396153360910000000000_00000007932543186715090470000000000_00000006977086485882212100000000000_00000006212917000850883310000000000_00000005590304045442416320000000000_00000005074822686345527350000000000_00000004642034528428674530000000000_00000004274197771135908580000000000_00000003958172335426468640000000000_00000003684050599075518210000000000_00000003444241016017099340000000000_00000003232841557850650400000000000_00000003045202894772928870000000000_00000002877618401139303510000000000_00000002727100559940573600000000000_00000002591217263051597170000000000_00000002467970306949579140000000000,
  02602048049594855070000000000000000_00112153292617133301000000000000000_00014498630041984371900000000000000_00003120753850541352730000000000000_00000937655865363232455000000000000_00000359794909952871377000000000000_00000166641514315478836000000000000_00000089425810721497790000000000000_00000053867512218103047700000000000_00000035520984066606709700000000000_00000025139561202717730200000000000_00000018804737409249835700000000000_00000014691727717684055000000000000_00000011880703257742466900000000000_00000009875780629162519850000000000_00000008393825900139522890000000000_00000007264988169907287270000000000_00000006382919493295876520000000000_00000005678504521675841960000000000_00000005105335773255603790000000000_00000004631345594590189790000000000_00000004233805690332829160000000000_00000003896239970768771950000000000_00000003606462125953387620000000000_00000003355294937816080760000000000_00000003135714422004819500000000000_00000002942265437921105600000000000_00000002770654777902691900000000000_00000002617462733714306450000000000_00000002479935278415488060000000000_00000002355832071725760820000000000_00000002243313750551520060000000000,
  02590904697234856120000000000000000_00110718878591591818000000000000000_00014191183657400336800000000000000_00003028759833136500440000000000000_00000902494899160167924000000000000_00000343569055591193917000000000000_00000157962453841690574000000000000_00000084212551638222385300000000000_00000050438037733579578100000000000_00000033098651703558939200000000000_00000023330606442737016800000000000_00000017393356567944602700000000000_00000013551667070733000400000000000_00000010933909622254331600000000000_00000009071682401422790740000000000_00000007698316155285781220000000000_00000006654256803687417380000000000_00000005839841150175689010000000000_00000005190437976434848900000000000_00000004662735620534861470000000000_00000004226858871507946430000000000_00000003861667612147527900000000000_00000003551859645930343970000000000_00000003286132156379992630000000000_00000003055983749670342000000000000_00000002854915048131329370000000000_00000002677883583210433630000000000_00000002520924713785441520000000000_00000002380883232932719340000000000_00000002255220199555185970000000000_00000002141871801973603470000000000_00000002039144799692998320000000000,
  02579903264232660810000000000000000_00109314755027691103000000000000000_00013892763538301802600000000000000_00002940202208150773070000000000000_00000868913977877315374000000000000_00000328185602616316514000000000000_00000149787968204606484000000000000_00000079330424046996426200000000000_00000047241982269244820300000000000_00000030850344043491242000000000000_00000021657243969303600200000000000_00000016091378991720634400000000000_00000012502378714356184600000000000_00000010064147826615931400000000000_00000008334170007112776070000000000_00000007061243688792452220000000000_00000006095465050923618020000000000_00000005343422352953845810000000000_00000004744669627229490250000000000_00000004258779536301801100000000000_00000003857916218856000390000000000_00000003522414653488448420000000000_00000003238061480899773240000000000_00000002994372351259371290000000000_00000002783471244000924450000000000_00000002599343720562570530000000000_00000002437328415166206080000000000_00000002293763849705096970000000000_00000002165738668771682190000000000_00000002050912074966832700000000000_00000001947382765774343030000000000_00000001853591930570605560000000000,
  02569040766107214430000000000000000_00107940036220972296000000000000000_00013603033807346348400000000000000_00002854927100363779300000000000000_00000836831330019859679000000000000_00000313595711012812705000000000000_00000142086082901980884000000000000_00000074756934018989779600000000000_00000044262603454245880900000000000_00000028763034060856522900000000000_00000020108974751364672500000000000_00000014890101752305184500000000000_00000011536482866774139200000000000_00000009265043008216754250000000000_00000007657651812943598100000000000_00000006477640945444101460000000000_00000005584152152729933410000000000_00000004889620712869456830000000000_00000004337507431791439450000000000_00000003890072558928089480000000000_00000003521377383378183190000000000_00000003213127085912217670000000000_00000002952118345396244950000000000_00000002728625103741020710000000000_00000002535350075715682490000000000_00000002366727127574525700000000000_00000002218446866912020200000000000_00000002087127557669846250000000000_00000001970082672186840920000000000_00000001865153959699798410000000000_00000001770589728928293120000000000_00000001684954848354250010000000000,
  02558314305293830640000000000000000_00106593869298762390000000000000000_00013321673573864745300000000000000_00002772788572741268520000000000000_00000806169911902316565000000000000_00000299753628482815291000000000000_00000134826991240736921000000000000_00000070471198441512411500000000000_00000041484410545391836400000000000_00000026824702322432463400000000000_00000018676134191372279500000000000_00000013781528936897323800000000000_00000010647210083973181200000000000_00000008530755356918643070000000000_00000007037011295980052720000000000_00000005942966835422476300000000000_00000005116243681867277820000000000_00000004474746582014086270000000000_00000003965583618217121750000000000_00000003553519597531308630000000000_00000003214380865434955790000000000_00000002931145497897962070000000000_00000002691547203180427980000000000_00000002486562525409881730000000000_00000002309429798374264320000000000_00000002154997357794035590000000000_00000002019280904758904900000000000_00000001899156850789160910000000000_00000001792145969171739690000000000_00000001696258196229461040000000000_00000001609879585177337650000000000_00000001531688798438979120000000000,
  02547721067934642640000000000000000_00105275432760422568000000000000000_00013048376163175669500000000000000_00002693648168738092810000000000000_00000776857109452485464000000000000_00000286616481514705278000000000000_00000127982899348977546000000000000_00000066453824757033332900000000000_00000038893067724752006200000000000_00000025024256979515812500000000000_00000017349824388194173400000000000_00000012758313212213892500000000000_00000009828350060513143970000000000_00000007855934673401948610000000000_00000006467566271295502880000000000_00000005453069812027609120000000000_00000004688017841171671080000000000_00000004095432080254698460000000000_00000003625826049273264600000000000_00000003246298818454931720000000000_00000002934319070381855130000000000_00000002674047498725397420000000000_00000002454087191268208520000000000_00000002266065751676361180000000000_00000002103717269102790620000000000_00000001962273296261789150000000000_00000001838049822018586930000000000_00000001728161493821639030000000000_00000001630320237342508420000000000_00000001542690955042212290000000000_00000001463786526073929010000000000_00000001392390317107777970000000000,
  02537258320811251160000000000000000_00103983935092425412000000000000000_00012782848390213324600000000000000_00002617374483401455280000000000000_00000748824460153240676000000000000_00000274144081365084084000000000000_00000121527882743639774000000000000_00000062686799983450926800000000000_00000036475305068879076200000000000_00000023351460249993026700000000000_00000016121851995030863300000000000_00000011813702287890724800000000000_00000009074204776654599490000000000_00000007235678825625022290000000000_00000005945031648391850760000000000_00000005004154169354476590000000000_00000004296074720445669300000000000_00000003748602856704616550000000000_00000003315432127604390810000000000_00000002965837403698689210000000000_00000002678815683325181800000000000_00000002439626514148279120000000000_00000002237679673658260610000000000_00000002065206116537183770000000000_00000001916398828120212860000000000_00000001786843709294097830000000000_00000001673134143560842050000000000_00000001572604653180745290000000000_00000001483143436632235570000000000_00000001403058189218155090000000000_00000001330978569375274880000000000_00000001265784289376119840000000000,
  02526923408412303250000000000000000_00102718613453970424000000000000000_00012524809874686196700000000000000_00002543842761333339480000000000000_00000722007393687095284000000000000_00000262298743843618911000000000000_00000115437753562966491000000000000_00000059153388279989107000000000000_00000034218836567845701500000000000_00000021796860854574982800000000000_00000014984671203499688100000000000_00000010941489863522809000000000000_00000008379545619113506490000000000_00000006665495766138427430000000000_00000005465485408735983450000000000_00000004592749277337852540000000000_00000003937308250676466710000000000_00000003431452343150042830000000000_00000003031845015423542750000000000_00000002709789469099135530000000000_00000002445705067643656020000000000_00000002225872485469819060000000000_00000002040450091234547650000000000_00000001882228027427735630000000000_00000001745824091799643380000000000_00000001627151864526429990000000000_00000001523060994309576500000000000_00000001431088945836390530000000000_00000001349286479275167950000000000_00000001276092873489927870000000000_00000001210245321344447020000000000_00000001150712193950362620000000000,
  02516713750129151160000000000000000_00101478732429115960000000000000000_00012273992395172279100000000000000_00002472934519709114460000000000000_00000696344989955179199000000000000_00000251045121875857085000000000000_00000109689937643510921000000000000_00000055838036382672777400000000000_00000032112284623578006800000000000_00000020351731916349557400000000000_00000013931331424809858800000000000_00000010135970679260078300000000000_00000007739574134984867270000000000_00000006141268802389701180000000000_00000005025337523756646740000000000_00000004215681496515550930000000000_00000003608880617605846220000000000_00000003141418278453057780000000000_00000002772731962520158460000000000_00000002476015949108418160000000000_00000002233013505639968380000000000_00000002030954300640387540000000000_00000001860691445652402080000000000_00000001715533386250040370000000000_00000001590491212838500200000000000_00000001481781546521347470000000000_00000001386490798275468890000000000_00000001302343759404949940000000000_00000001227541116609482020000000000_00000001160643410136426730000000000_00000001100486859785971140000000000_00000001046121426273675290000000000,
  02506626837573130420000000000000000_00100263582841656385000000000000000_00012030139279729934800000000000000_00002404537194677155490000000000000_00000671779753240772068000000000000_00000240350049897846476000000000000_00000104263360686220981000000000000_00000052726286288003441800000000000_00000030145110503970596700000000000_00000019008013873868537300000000000_00000012955429275308620000000000000_00000009391899322427772390000000000_00000007149886107802082200000000000_00000005659224838970613810000000000_00000004621301557256794510000000000_00000003870048537586413240000000000_00000003308198917775684020000000000_00000002876161302632434510000000000_00000002535964554853939910000000000_00000002262566272352362670000000000_00000002038942116038217370000000000_00000001853203801471208090000000000_00000001696849269699009510000000000_00000001563667416626748730000000000_00000001449033474426819210000000000_00000001349444341045097250000000000_00000001262205186900530000000000000_00000001185213727397655200000000000_00000001116808931443373040000000000_00000001055663094859422140000000000_00000001000703635036767850000000000_00000000951055600658245152000000000,
  02496660232008361230000000000000000_00099072480629207136300000000000000_00011793004830765080000000000000000_00002338543809582698750000000000000_00000648257401378472198000000000000_00000230182399208922934000000000000_00000099138342815744462200000000000_00000049804694613622467300000000000_00000028307550272339094300000000000_00000017758261995570348100000000000_00000012051064506922412000000000000_00000008704452472380111870000000000_00000006606438671561537340000000000_00000005215905335224071480000000000_00000004250368718637226110000000000_00000003553196051551100200000000000_00000003032893859392550560000000000_00000002633545437244537150000000000_00000002319600712784403500000000000_00000002067661667921868950000000000_00000001861851297919089560000000000_00000001691101225130588880000000000_00000001547507949969186100000000000_00000001425305770127838990000000000_00000001320207097405420650000000000_00000001228968072677530940000000000_00000001149096006554057380000000000_00000001078648254205286070000000000_00000001016091334916623090000000000_00000000960200545589511270000000000_00000000909987295571005270000000000_00000000864645741604741642000000000,
  02486811561894320090000000000000000_00097904765773178729400000000000000_00011562353782045504900000000000000_00002274852663568785840000000000000_00000625726668874060498000000000000_00000220512943475833869000000000000_00000094296500891882218900000000000_00000047060758110791521400000000000_00000026590555751240496800000000000_00000016595598117745049000000000000_00000011212799553416997200000000000_00000008069194292968218040000000000_00000006105520203067118610000000000_00000004808139743949360750000000000_00000003909784153790099930000000000_00000003262696255100342350000000000_00000002780800327864031910000000000_00000002411620285005860280000000000_00000002121868283261453050000000000_00000001889679956705100810000000000_00000001700246564217902740000000000_00000001543261950888575200000000000_00000001411378279836398880000000000_00000001299242795758808950000000000_00000001202880150405504660000000000_00000001119286290925414410000000000_00000001046155325072123330000000000_00000000981691994033792688000000000_00000000924480476043086442000000000_00000000873391006066603348000000000_00000000827512353447456510000000000_00000000786102282674434839000000000,
  02477078520532750270000000000000000_00096759801281524605300000000000000_00011337960785892712600000000000000_00002213367039208718410000000000000_00000604139122997681908000000000000_00000211314233642920514000000000000_00000089720657982490376900000000000_00000044482844845781363000000000000_00000024985740115872985800000000000_00000015513666259744873100000000000_00000010435622391202366400000000000_00000007482044706831159650000000000_00000005643722755341588430000000000_00000004433021217311238400000000000_00000003597025279180915190000000000_00000002996328413120098920000000000_00000002549939651810588230000000000_00000002208604796460054830000000000_00000001941150084208199660000000000_00000001727141695130132000000000000_00000001552765640222778920000000000_00000001408424434717262800000000000_00000001287286131737120800000000000_00000001184380867492126090000000000_00000001096022462959293690000000000_00000001019428709555991520000000000_00000000952466346366545287000000000_00000000893476196759956729000000000_00000000841150980524437975000000000_00000000794448444121912369000000000_00000000752528612610188353000000000_00000000714707798783182876000000000,
  02467458863813781300000000000000000_00095636972221338086500000000000000_00011119609928711457100000000000000_00002153994927918551130000000000000_00000583448991944619827000000000000_00000202560481559802794000000000000_00000085394759453455983500000000000_00000042060130606056644400000000000_00000023485327745433461500000000000_00000014506591798980716500000000000_00000009714912438835940070000000000_00000006939250308406526420000000000_00000005217916815297819690000000000_00000004087884384642602040000000000_00000003309781981654414550000000000_00000002752061015864793110000000000_00000002338503419889233590000000000_00000002022872465026292590000000000_00000001775970271986584530000000000_00000001578697550575087910000000000_00000001418166713711708090000000000_00000001285439224942390390000000000_00000001174162147823892530000000000_00000001079720674163131940000000000_00000000998696450658947347000000000_00000000928512512543490711000000000_00000000867195150428359169000000000_00000000813210841629328538000000000_00000000765352443059949996000000000_00000000722658371928325197000000000_00000000684354290120342130000000000_00000000649810404599787218000000000,
  02457950408056411590000000000000000_00094535684798551607000000000000000_00010907094273137885000000000000000_00002096648771985369790000000000000_00000563613004224145308000000000000_00000194227451690288355000000000000_00000081303795173975436900000000000_00000039782540122764236000000000000_00000022082107991217423000000000000_00000013568943914649448000000000000_00000009046409242635729540000000000_00000006437357693289991430000000000_00000004825228187533048440000000000_00000003770285023789064150000000000_00000003045938522019007260000000000_00000002528035502643871820000000000_00000002144838712005749350000000000_00000001852937824091507130000000000_00000001624981914361238700000000000_00000001443116798521357250000000000_00000001295317733558553450000000000_00000001173258961772698010000000000_00000001071032357169825810000000000_00000000984352384724293001000000000_00000000910048769701201069000000000_00000000845734447905704197000000000_00000000789583183591552723000000000_00000000740177486943913502000000000_00000000696402604311719205000000000_00000000657371322152209671000000000_00000000622369766814224128000000000_00000000590817757917581868000000000,
  02448551027938774160000000000000000_00093455365482157592500000000000000_00010700215425199524500000000000000_00002041245222127953730000000000000_00000544590238498108444000000000000_00000186292360314417600000000000000_00000077433727374555675800000000000_00000037640692733740034200000000000_00000020769392548124642200000000000_00000012695701033316184300000000000_00000008426183717090557750000000000_00000005973189000521634510000000000_00000004463016823158881880000000000_00000003477981463119738870000000000_00000002803556994618246610000000000_00000002322551396896727600000000000_00000001967434620555865150000000000_00000001697444131034681740000000000_00000001486955661869426430000000000_00000001319276841371522490000000000_00000001183186662910476660000000000_00000001070929272293689110000000000_00000000977009636007394783000000000_00000000897447609736560180000000000_00000000829302725663490073000000000_00000000770363637873134545000000000_00000000718940430774617301000000000_00000000673722770451138489000000000_00000000633681149983882763000000000_00000000597996919994138510000000000_00000000566011909710659678000000000_00000000537191612485318771000000000,
  02439258654513855810000000000000000_00092395460170525757300000000000000_00010498783124984903500000000000000_00001987704909581390100000000000000_00000526341983147496652000000000000_00000178733781679986773000000000000_00000073771423731213463300000000000_00000035625852141286210400000000000_00000019540976141798260900000000000_00000011882219031619370000000000000_00000007850611728217763740000000000_00000005543819481695226180000000000_00000004128857428150421760000000000_00000003208917565452328660000000000_00000002580862208007341140000000000_00000002134052729408857030000000000_00000001804909948327859870000000000_00000001555152133295466210000000000_00000001360769420057660980000000000_00000001206153657814938970000000000_00000001080832601475892130000000000_00000000977580480480776892000000000_00000000891285935032361320000000000_00000000818252087145348176000000000_00000000755751368182283968000000000_00000000701735040345183594000000000_00000000654639207643382415000000000_00000000613252501109098503000000000_00000000576624075196263263000000000_00000000543998496604846153000000000_00000000514768913782835435000000000_00000000488442869883859621000000000,
  02430071273306575440000000000000000_00091355433397536883200000000000000_00010302614859417906300000000000000_00001935952231766736420000000000000_00000508831604897474145000000000000_00000171531560600861828000000000000_00000070304595282523963900000000000_00000033729879946558979700000000000_00000018391100267069249000000000000_00000011124201971647915800000000000_00000007316349825825854470000000000_00000005146556926616551580000000000_00000003820521699918722350000000000_00000002961207158031029590000000000_00000002376227863627636360000000000_00000001961115637250330170000000000_00000001656001979714946000000000000_00000001424929820911674660000000000_00000001245398933743080510000000000_00000001102813099780124320000000000_00000000987397699138427698000000000_00000000892420059035070068000000000_00000000813125204667869967000000000_00000000746079026906446494000000000_00000000688751209408282459000000000_00000000639243502506134162000000000_00000000596108516295871070000000000_00000000558226288320996049000000000_00000000524718562530530486000000000_00000000494888194357051350000000000_00000000468175615515915708000000000_00000000444127084666473174000000000,
  02420986922488347910000000000000000_00090334767576389047800000000000000_00010111535495822601200000000000000_00001885915150671327360000000000000_00000492024425879770860000000000000_00000164666731037183031000000000000_00000067021738816700777900000000000_00000031945192667749164800000000000_00000017314419734880782700000000000_00000010417675163117194400000000000_00000006820312946932619300000000000_00000004778922789707183170000000000_00000003535962053799728240000000000_00000002733119784461220520000000000_00000002188163920112703650000000000_00000001802437035889399610000000000_00000001519556231012645220000000000_00000001305743078432268510000000000_00000001139909202376750060000000000_00000001008402961436837910000000000_00000000902099790097170989000000000_00000000814725756438489343000000000_00000000741856955426214388000000000_00000000680303054953251913000000000_00000000627716509752624767000000000_00000000582338352852467069000000000_00000000542828913210571803000000000_00000000508152659654022739000000000_00000000477498326848460989000000000_00000000450222518989917172000000000_00000000425809235036291679000000000_00000000403840381185869263000000000,
  02412003691125468350000000000000000_00089332962279059426200000000000000_00009925376935048682880000000000000_00001837525003125169390000000000000_00000475887608556012774000000000000_00000158121440227417560000000000000_00000063912083393990826500000000000_00000030264721972519996300000000000_00000016305971804591077800000000000_00000009758960363489165910000000000_00000006359653927498270690000000000_00000004438634874578623730000000000_00000003273296713017314900000000000_00000002523067665244149210000000000_00000002015305040657451300000000000_00000001656824270934268300000000000_00000001394517093893387910000000000_00000001196647156838553980000000000_00000001043446652796612800000000000_00000000922145751467919632000000000_00000000824225683089186000000000000_00000000743839338622806754000000000_00000000676870396182957288000000000_00000000620354702384897567000000000_00000000572114079564790444000000000_00000000530518482771625485000000000_00000000494327842870816893000000000_00000000462584622530090803000000000_00000000434539384270894465000000000_00000000409598297762968179000000000_00000000387285507562010330000000000_00000000367215744349695797000000000,
  02403119717497846880000000000000000_00088349533549523798300000000000000_00009743977783006317190000000000000_00001790716322214412460000000000000_00000460390047966960297000000000000_00000151878877974377777000000000000_00000060965540695536339000000000000_00000028681877876559017500000000000_00000015361147696647725500000000000_00000009144652942773683970000000000_00000005931744673276943600000000000_00000004123591446295907570000000000_00000003030796046516130320000000000_00000002329593763357945890000000000_00000001856400029819757710000000000_00000001523185664161979560000000000_00000001279919293729935170000000000_00000001096778893144144520000000000_00000000955232002223453265000000000_00000000843332105981641222000000000_00000000753125049033708754000000000_00000000679160890103490049000000000_00000000617609098341284653000000000_00000000565715390654069111000000000_00000000521458550043166126000000000_00000000483327873255441567000000000_00000000450175394722808469000000000_00000000421115629439033797000000000_00000000395456206602195930000000000_00000000372649006498457295000000000_00000000352255168523597457000000000_00000000333919650013688064000000000,
  02394333187484808560000000000000000_00087384013248947307400000000000000_00009567183039532466370000000000000_00001745426669124452130000000000000_00000445502270810905894000000000000_00000145923210717000351000000000000_00000058172658913673738100000000000_00000027190514679759677400000000000_00000014475666297228165300000000000_00000008571600854034137790000000000_00000005534158853076831540000000000_00000003831856651907665280000000000_00000002806870048961053560000000000_00000002151360860280398010000000000_00000001710302174278369060000000000_00000001400521875975520770000000000_00000001174880091346631760000000000_00000001005349611755307090000000000_00000000874553750331836287000000000_00000000771314785034106163000000000_00000000688204852700244766000000000_00000000620143624392941666000000000_00000000563566138560330579000000000_00000000515912867988008843000000000_00000000475308070915802257000000000_00000000440351526369740030000000000_00000000409980444982237509000000000_00000000383375909916611468000000000_00000000359898226024459743000000000_00000000339041431790174146000000000_00000000320400759973607330000000000_00000000303649003870314357000000000,
  02385642333014846100000000000000000_00086435948431164350400000000000000_00009394843803579095160000000000000_00001701596474753096050000000000000_00000431196340889914761000000000000_00000140239520047072752000000000000_00000055524579920571570900000000000_00000025784899429616141800000000000_00000013645549881674536900000000000_00000008036885263711674550000000000_00000005164655989148438670000000000_00000003561647139930880540000000000_00000002600056866245845770000000000_00000001987141556018885330000000000_00000001575960409510325890000000000_00000001287918013252700790000000000_00000001078592163072783160000000000_00000000921638647513657068000000000_00000000800762244672213340000000000_00000000705503200827789290000000000_00000000628924279791988157000000000_00000000566289158023427727000000000_00000000514279676992118953000000000_00000000470517056326827670000000000_00000000433260396280289540000000000_00000000401211764772075300000000000_00000000373387148309816344000000000_00000000349029135883889748000000000_00000000327546658101051702000000000_00000000308472637744023111000000000_00000000291433728872190375000000000_00000000276128360549953032000000000,
  02377045430576376500000000000000000_00085504900746863220200000000000000_00009226816993777362620000000000000_00001659168890478699050000000000000_00000417445770495392581000000000000_00000134813745355379628000000000000_00000053012999472309220600000000000_00000024459682718023032200000000000_00000012867101697531147800000000000_00000007537802707879494170000000000_00000004821166829882403420000000000_00000003311319778724852430000000000_00000002409012278118418400000000000_00000001835809114171974310000000000_00000001452411241138983160000000000_00000001184536417771616460000000000_00000000990317099710091219000000000_00000000844987435663792660000000000_00000000733264268678171540000000000_00000000645358430291826356000000000_00000000574790115194304087000000000_00000000517143206618233571000000000_00000000469328931856275873000000000_00000000429136271746505036000000000_00000000394949323493027425000000000_00000000365564865905711135000000000_00000000340071747561571712000000000_00000000317769389992220375000000000_00000000298111614050091595000000000_00000000280667209419987290000000000_00000000265091790532362440000000000_00000000251107397248004839000000000,
  02368540799786706700000000000000000_00084590445874982702200000000000000_00009062965083491323960000000000000_00001618089647509485150000000000000_00000404225437334834298000000000000_00000129632630315088322000000000000_00000050630130224104852100000000000_00000023209871632940264200000000000_00000012136885260823867300000000000_00000007071848651534645200000000000_00000004501779899575806420000000000_00000003079360382144866290000000000_00000002232500057082008780000000000_00000001696329079857662160000000000_00000001338771355897185700000000000_00000001089610076070810950000000000_00000000909379470255695017000000000_00000000774794118835794882000000000_00000000671518106007755073000000000_00000000590388668973259245000000000_00000000525352532104336847000000000_00000000472291665187218996000000000_00000000428330514714812071000000000_00000000391413784683245156000000000_00000000360041453181315839000000000_00000000333098000530314188000000000_00000000309739672714655169000000000_00000000289318409387180183000000000_00000000271329475902115400000000000_00000000255374747692317821000000000_00000000241136532957538307000000000_00000000228358618549077066000000000,
  02360126802016557760000000000000000_00083692172979913673800000000000000_00008903155849530101310000000000000_00001578306924278664620000000000000_00000391511506629733622000000000000_00000124683672931753134000000000000_00000048368667349543271900000000000_00000022030804700421926400000000000_00000011451705230998747700000000000_00000006636702338113989380000000000_00000004204729128794382540000000000_00000002864373358599922790000000000_00000002069383129632411830000000000_00000001567751604561917920000000000_00000001234230862801686990000000000_00000001002436596776053620000000000_00000000835161400989129496000000000_00000000710508625548832014000000000_00000000615029039079606735000000000_00000000540145087013519100000000000_00000000480201255367483487000000000_00000000431357038223496894000000000_00000000390935094022913329000000000_00000000357024689321520894000000000_00000000328233241345647924000000000_00000000303526448006118359000000000_00000000282122902700277509000000000_00000000263423079820939624000000000_00000000246960510566931517000000000_00000000232367592558542053000000000_00000000219351240028006048000000000_00000000207675271260431148000000000,
  02351801839067634380000000000000000_00082809684193179239700000000000000_00008747262133739216290000000000000_00001539771221385637500000000000000_00000379281358040686134000000000000_00000119955078909232354000000000000_00000046221756572449984500000000000_00000020918128665418079600000000000_00000010808589740749818900000000000_00000006230212825660936040000000000_00000003928382476886670670000000000_00000002665072206712807970000000000_00000001918615472197825550000000000_00000001449204417639764120000000000_00000001138047110292158220000000000_00000000922372706144234176000000000_00000000767097624876581751000000000_00000000651628178765875354000000000_00000000563345243409482382000000000_00000000494218051485017971000000000_00000000438962065631667716000000000_00000000393995188271902768000000000_00000000356824357454770468000000000_00000000325673054277758216000000000_00000000299248317150644311000000000_00000000276591063253705405000000000_00000000256977566266290067000000000_00000000239853157328768867000000000_00000000224786701024857393000000000_00000000211438754029596256000000000_00000000199538913513022583000000000_00000000188869450011198585000000000,
  02343564351900854780000000000000000_00081942594118342428600000000000000_00008595161616740068710000000000000_00001502435243616749060000000000000_00000367513517099857443000000000000_00000115435718099209666000000000000_00000044182964434614888000000000000_00000019867776971631923500000000000_00000010204774066893647600000000000_00000005850386114540960770000000000_00000003671231465557962350000000000_00000002480270787251632100000000000_00000001779234679911433800000000000_00000001339886389386899080000000000_00000001049539029794606430000000000_00000000848829216878428495000000000_00000000704670960206669649000000000_00000000597693196695789056000000000_00000000516054042763359635000000000_00000000452233682549782347000000000_00000000401293613920313991000000000_00000000359892374454977001000000000_00000000325708246162359428000000000_00000000297089329230267232000000000_00000000272835042395175823000000000_00000000252055972588919018000000000_00000000234081760164837012000000000_00000000218399196762791266000000000_00000000204609774847307281000000000_00000000192400031642516911000000000_00000000181520475719858963000000000_00000000171770376139540746000000000,
  02335412819412977950000000000000000_00081090529357961293600000000000000_00008446736603131638410000000000000_00001466253788609913110000000000000_00000356187590853357540000000000000_00000111115083819011224000000000000_00000042246250635987113500000000000_00000018875949811636731900000000000_00000009637685537564457640000000000_00000005495373279371568810000000000_00000003431881549144625330000000000_00000002308875306921615760000000000_00000001650355151614672370000000000_00000001239061635335840670000000000_00000000968081960464343751000000000_00000000781266429193450372000000000_00000000647408180982720955000000000_00000000548283551379694217000000000_00000000472778493249815957000000000_00000000413850713803770568000000000_00000000366884518946265767000000000_00000000328762555003552027000000000_00000000297322436543685387000000000_00000000271027984436501540000000000_00000000248764290827117164000000000_00000000229706477702574409000000000_00000000213233564935301973000000000_00000000198870668363764114000000000_00000000186249412059459314000000000_00000000175080305371339682000000000_00000000165133136257445945000000000_00000000156222833993389049000000000,
  02327345757259479720000000000000000_00080253128061477725500000000000000_00008301873817510603370000000000000_00001431183641756115100000000000000_00000345284207436797477000000000000_00000106983254838120635000000000000_00000040405942296332693200000000000_00000017939095628505039000000000000_00000009104929579375748420000000000_00000005163459524955477330000000000_00000003209043253395696150000000000_00000002149876955021749600000000000_00000001531161839304184830000000000_00000001146054115756060000000000000_00000000893102913783956526000000000_00000000719189926691581327000000000_00000000594876244888280703000000000_00000000503015153642564912000000000_00000000433174267303823833000000000_00000000378757629812503484000000000_00000000335450721965819143000000000_00000000300344930169644968000000000_00000000271426047297098375000000000_00000000247265362161742970000000000_00000000226827427445622029000000000_00000000209347148936434436000000000_00000000194249240347561223000000000_00000000181094245266960830000000000_00000000169541616000136721000000000_00000000159323982287203874000000000_00000000150228907905729235000000000_00000000142085750226572503000000000,
  02319361716721637230000000000000000_00079430039492988675600000000000000_00008160464210705415170000000000000_00001397183476957505890000000000000_00000334784959326528671000000000000_00000103030859848316920000000000000_00000038656709998752812400000000000_00000017053893959448033200000000000_00000008604276815884126910000000000_00000004853054092538567300000000000_00000003001524020216739260000000000_00000002002345138926285350000000000_00000001420904514637005850000000000_00000001060242688288395690000000000_00000000824076240269955182000000000_00000000662146732874133838000000000_00000000546678847643635505000000000_00000000461536835764930802000000000_00000000396926811091389926000000000_00000000346670056249227228000000000_00000000306733076226570878000000000_00000000274401704020048417000000000_00000000247799551539660606000000000_00000000225597720937696406000000000_00000000206834469731771879000000000_00000000190800090717562666000000000_00000000176961584201770675000000000_00000000164912246396912793000000000_00000000154337232326240116000000000_00000000144989584749715560000000000_00000000136673257956480336000000000_00000000129230902994565352000000000,
  02311459283615883850000000000000000_00078620923617907073900000000000000_00008022402775656644500000000000000_00001364213762886644530000000000000_00000324672350026892464000000000000_00000099249044245787718100000000000_00000036993545485979307100000000000_00000016217239520471351200000000000_00000008133651135754999950000000000_00000004562680948706181300000000000_00000002808220701004903940000000000_00000001865421268885364420000000000_00000001318892509132316760000000000_00000000981056575252879257000000000_00000000760519663807975206000000000_00000000609721797093809936000000000_00000000502453275307307454000000000_00000000423527505757410787000000000_00000000363748751212112540000000000_00000000317328380237241331000000000_00000000280495150114936838000000000_00000000250716045538746310000000000_00000000226242875588191240000000000_00000000205839455292358399000000000_00000000188612414383250881000000000_00000000173903363568232119000000000_00000000161218439663488748000000000_00000000150181220622164448000000000_00000000140500602664822305000000000_00000000131948467211619134000000000_00000000124343882639872791000000000_00000000117541749155067054000000000,
  02303637077243592700000000000000000_00077825450707574757400000000000000_00007887588372410283340000000000000_00001332236674414578770000000000000_00000314929743970343449000000000000_00000095629439065986681700000000000_00000035411740890066494500000000000_00000015426227438884431300000000000_00000007691118655519635340000000000_00000004290970194727991150000000000_00000002628112645944140840000000000_00000001738313046788570770000000000_00000001224489888386887330000000000_00000000907971210465774335000000000_00000000701990652117927168000000000_00000000561534781470764359000000000_00000000461867528571230820000000000_00000000388693549424505209000000000_00000000333377528715284441000000000_00000000290495580492576401000000000_00000000256521224977203269000000000_00000000229090231222299702000000000_00000000206573667657892714000000000_00000000187821475159456394000000000_00000000172003714615175260000000000_00000000158509548522240705000000000_00000000146881337660439631000000000_00000000136770659328312081000000000_00000000127908340647699378000000000_00000000120083649899783841000000000_00000000113129593385202154000000000_00000000106912358669326640000000000,
  02295893749379538570000000000000000_00077043300960941431700000000000000_00007755923561722831890000000000000_00001301216008896988410000000000000_00000305541319422651482000000000000_00000092164131923488543600000000000_00000033906869385049303400000000000_00000014678139547709268700000000000_00000007274877507776318510000000000_00000004036650139204452240000000000_00000002460255340972478330000000000_00000001620289217332795530000000000_00000001137111023984884540000000000_00000000840504433413334741000000000_00000000648083094572325500000000000_00000000517237122774922865000000000_00000000424617695373082910000000000_00000000356766458503590534000000000_00000000305573240393319818000000000_00000000265955248679466281000000000_00000000234614470288404256000000000_00000000209343952950330080000000000_00000000188625721240250179000000000_00000000171389730600889931000000000_00000000156864894440841901000000000_00000000144484441063641444000000000_00000000133824262091979045000000000_00000000124561825737253399000000000_00000000116448219182691235000000000_00000000109288758708344373000000000_00000000102929304694214090000000000_00000000097246446390681924800000000,
  02288227983297373510000000000000000_00076274164142472283200000000000000_00007627314446807061050000000000000_00001271117107027676230000000000000_00000296492024199623846000000000000_00000088845639819719878400000000000_00000032474767160396680200000000000_00000013970431662671286100000000000_00000006883248391168367810000000000_00000003798539981494799830000000000_00000002303774548112764630000000000_00000001510674743511659980000000000_00000001056216529858330720000000000_00000000778213001381333670000000000_00000000598424261075925040000000000_00000000476509345539452276000000000_00000000390425550223492089000000000_00000000327500665078566036000000000_00000000280116669091051779000000000_00000000243509785045021931000000000_00000000214595280391253247000000000_00000000191312776367437509000000000_00000000172247539292718500000000000_00000000156403868771802487000000000_00000000143065287575215300000000000_00000000131705862872243060000000000_00000000121932526715537939000000000_00000000113446690363508430000000000_00000000106018158832490193000000000_00000000099467061614456103400000000_00000000093651114341155074000000000_00000000088456492326406721000000000,
  02280638492830533610000000000000000_00075517739235492552000000000000000_00007501670522775467390000000000000_00001241906777987377360000000000000_00000287767534015003334000000000000_00000085666883691274476700000000000_00000031111516620711206600000000000_00000013300721768566386700000000000_00000006514665823508443530000000000_00000003575543057652408400000000000_00000002157860908505130900000000000_00000001408846371525395450000000000_00000000981309532666996330000000000_00000000720689392653447086000000000_00000000552672017983518710000000000_00000000439058604734478023000000000_00000000359036360537351406000000000_00000000300671564211648679000000000_00000000256807486386321109000000000_00000000222978752905730952000000000_00000000196299758436513274000000000_00000000174846736336299270000000000_00000000157301026619869614000000000_00000000142736011236865111000000000_00000000130485889721584567000000000_00000000120062580722411838000000000_00000000111101753586165479000000000_00000000103326962964435897000000000_00000000096525308096131392700000000_00000000090530592812539175700000000_00000000085211467463543215000000000_00000000080462942276004299300000000,
  02273124021467070670000000000000000_00074773734110220340100000000000000_00007378904533364759630000000000000_00001213553228633272060000000000000_00000279354213291466341000000000000_00000082621164580620705700000000000_00000029813430724161188900000000000_00000012666779047426573500000000000_00000006167670044048387600000000000_00000003366640604489966090000000000_00000002021764970821767630000000000_00000001314228553122680930000000000_00000000911932248338619781000000000_00000000667558876188745874000000000_00000000510512279104227586000000000_00000000404616438213650659000000000_00000000330216881983406265000000000_00000000276073708326473249000000000_00000000235462612470359991000000000_00000000204197377930121701000000000_00000000179578334439050209000000000_00000000159809057226099954000000000_00000000143660298960351252000000000_00000000130269640818690341000000000_00000000119018314018119279000000000_00000000109453322847375812000000000_00000000101236943845017975000000000_00000000094113212219024102500000000_00000000087885207227589002300000000_00000000082399356567268196000000000_00000000077534396879644855000000000_00000000073193481491141979700000000,
  02265683341476975970000000000000000_00074041865205779353000000000000000_00007258932334549355990000000000000_00001186025996490817460000000000000_00000271239078278037794000000000000_00000079702141319430537100000000000_00000028577038378626477000000000000_00000012066513686090800300000000000_00000005840899515150205650000000000_00000003170886000973457010000000000_00000001894792610808169000000000000_00000001226289696052478350000000000_00000000847662839262787266000000000_00000000618476825287711438000000000_00000000471656671732107751000000000_00000000372936710864882782000000000_00000000303753526439400477000000000_00000000253519158324656997000000000_00000000215914719398604028000000000_00000000187015179411197300000000000_00000000164294505531731473000000000_00000000146074986896577737000000000_00000000131210598326376831000000000_00000000118898588134681234000000000_00000000108563840345238769000000000_00000000099785883959182616100000000_00000000092251632488647117000000000_00000000085724065167731554100000000_00000000080021027988873327700000000_00000000075000603516342092700000000_00000000070550832669884700200000000_00000000066582374676380884500000000,
  02258315253070631800000000000000000_00073321857225521304700000000000000_00007141672764674944880000000000000_00001159295886324646510000000000000_00000263409762327821871000000000000_00000076903809622557951700000000000_00000027399070820536543500000000000_00000011497967405563738300000000000_00000005533083977527407350000000000_00000002987399449427077840000000000_00000001776300810503329590000000000_00000001144538715745389410000000000_00000000788112528783507436000000000_00000000573126254674537610000000000_00000000435840399370148960000000000_00000000343793733965012738000000000_00000000279450687574787902000000000_00000000232835977738833548000000000_00000000198010865105430086000000000_00000000171294721860032003000000000_00000000150323687562640280000000000_00000000133530734235594934000000000_00000000119847305081774502000000000_00000000108526108865841723000000000_00000000099032550035150438200000000_00000000090976310912676752300000000_00000000084067119510863209800000000_00000000078085479170903331700000000_00000000072862882428173887600000000_00000000068268172817986496400000000_00000000064197974696405057900000000_00000000060569866261973410100000000,
  02251018583587091840000000000000000_00072613442845023523400000000000000_00007027047520764772710000000000000_00001133334910079395080000000000000_00000255854483199779020000000000000_00000074220482497915974100000000000_00000026276448906918056000000000000_00000010959304658945766100000000000_00000005243038016824855280000000000_00000002815363062045372950000000000_00000001665693768266003480000000000_00000001068521863579680480000000000_00000000732922951603763638000000000_00000000531215562176713313000000000_00000000402820284392105846000000000_00000000316980544669519074000000000_00000000257129210391584292000000000_00000000213866857429235593000000000_00000000181611246690557017000000000_00000000156910476288213915000000000_00000000137552168149173047000000000_00000000122072501016132796000000000_00000000109475038099281677000000000_00000000099064043608119265700000000_00000000090342538289213782200000000_00000000082948161727596680300000000_00000000076611770499724272700000000_00000000071130079802238974600000000_00000000066347194403456947200000000_00000000062141894141324766100000000_00000000058418722313618805100000000_00000000055101635435960286100000000,
  02243792186710953220000000000000000_00071916362432161000700000000000000_00006914981040671570720000000000000_00001108116229994482630000000000000_00000248562012257416113000000000000_00000071646771884190684400000000000_00000025206271256285316200000000000_00000010448804448772866900000000000_00000004969655102615299400000000000_00000002654016320976423950000000000_00000001562419313094756170000000000_00000000997819809134430033000000000_00000000681763720515904750000000000_00000000492476457785319108000000000_00000000372372975327177993000000000_00000000292307331874759591000000000_00000000236624992247496306000000000_00000000196467859428580626000000000_00000000166588062500149339000000000_00000000143747781490700736000000000_00000000125876152184027761000000000_00000000111605599665047297000000000_00000000100006835115428564000000000_00000000090432052890981501000000000_00000000082419197303861153500000000_00000000075631831342741473200000000_00000000069820380400133095400000000_00000000064796558692672804400000000_00000000060416128144273772000000000_00000000056567044045767386000000000_00000000053161156048224782600000000_00000000050128300927757986600000000,
  02236634941716641430000000000000000_00071230363778683881000000000000000_00006805400390767008730000000000000_00001083614104709155240000000000000_00000241521645445748973000000000000_00000069177571434527764100000000000_00000024185803178733644700000000000_00000009964852718342943240000000000_00000004711902063935515470000000000_00000002502651882781363070000000000_00000001465965598894169920000000000_00000000932044955707280431000000000_00000000634330191519060099000000000_00000000456662064344189162000000000_00000000344293304768284860000000000_00000000269599995882525419000000000_00000000217787703974182332000000000_00000000180507269540734209000000000_00000000152824473450851418000000000_00000000131701896500399353000000000_00000000115200891590656433000000000_00000000102043649288151305000000000_00000000091363406108966347600000000_00000000082556920615749135600000000_00000000075194563737937789600000000_00000000068963938076114296400000000_00000000063633594723339692100000000_00000000059029125884332512800000000_00000000055017068664628198100000000_00000000051493851793466385700000000_00000000048378066504635476900000000_00000000045604970994070105400000000,
  02229545752738984880000000000000000_00070555201842761296200000000000000_00006698235158878353390000000000000_00001059803838185564730000000000000_00000234723175935792143000000000000_00000066808040370069870100000000000_00000023212466339963518200000000000_00000009505935275050770220000000000_00000004468813968286080900000000000_00000002360611700409556270000000000_00000001375858056324688990000000000_00000000870838970091679490000000000_00000000590341410892000990000000000_00000000423545175455019866000000000_00000000318392785106460108000000000_00000000248698830384998296000000000_00000000200479620696631335000000000_00000000165864549210994844000000000_00000000140213654888082992000000000_00000000120677136168913725000000000_00000000105439891856526529000000000_00000000093307842980892110500000000_00000000083472453172688726800000000_00000000075371919773721383600000000_00000000068606724729224938100000000_00000000062886765310462815900000000_00000000057997383003550842500000000_00000000053777011748949293400000000_00000000050102149312367536400000000_00000000046877050091251664300000000_00000000044026526185520607900000000_00000000041490834474536712000000000,
  02222523548069008060000000000000000_00069890638501980643300000000000000_00006593417352198689530000000000000_00001036661731288359900000000000000_00000228156868333173472000000000000_00000064533588332545861000000000000_00000022283829108000050400000000000_00000009070631206930747940000000000_00000004239489373596174500000000000_00000002227283437972707430000000000_00000001291656581694294690000000000_00000000813870509181676681000000000_00000000549538229169046969000000000_00000000392916657409537866000000000_00000000294498230391655734000000000_00000000229457316281608371000000000_00000000184574552865628599000000000_00000000152429378017700431000000000_00000000128657931038259277000000000_00000000110586082541280603000000000_00000000096514188537958285000000000_00000000085326280077151560400000000_00000000076268050934422862700000000_00000000068816234856797445100000000_00000000062599277190773894800000000_00000000057347753419655684900000000_00000000052862559773571379300000000_00000000048994013974729969800000000_00000000045627822170040197300000000_00000000042675466669478653400000000_00000000040067500311206619100000000_00000000037748789162916154000000000,
  02215567279473922360000000000000000_00069236442316317974100000000000000_00006490881299912710310000000000000_00001014165035869261220000000000000_00000221813434354301123000000000000_00000062349861170047422300000000000_00000021397597535104032900000000000_00000008657606756536244910000000000_00000004023085925026596330000000000_00000002102097155570610830000000000_00000001212952944020281700000000000_00000000760833127413541395000000000_00000000511681568228714404000000000_00000000364583983078914655000000000_00000000272450493623065767000000000_00000000211741017746134878000000000_00000000169956868841799690000000000_00000000140100778893337457000000000_00000000118067984814819370000000000_00000000101348865342366424000000000_00000000088351687536240605400000000_00000000078033357556039802300000000_00000000069690082116160011100000000_00000000062834435876081542300000000_00000000057120835593226292000000000_00000000052299037402359286400000000_00000000048184348760241639300000000_00000000044638085534381741900000000_00000000041554467412450145500000000_00000000038851652978658348500000000_00000000036465493079632856700000000_00000000034345104083281659800000000,
  02208675921540340520000000000000000_00068592388300620223900000000000000_00006390563560294762720000000000000_00000992291911214425516000000000000_00000215684009879865423000000000000_00000060252727594704248600000000000_00000020551606930820954500000000000_00000008265609618986348080000000000_00000003818816270667180780000000000_00000001984522243230747610000000000_00000001139368392921497040000000000_00000000711443350373895580000000000_00000000476550828859863300000000000_00000000338369886713806907000000000_00000000252103309688223180000000000_00000000195426571790263110000000000_00000000156520601123793674000000000_00000000128786318874943825000000000_00000000108362136376119062000000000_00000000092892505484608857000000000_00000000080886563496513830300000000_00000000071369215343014501600000000_00000000063683723305516257100000000_00000000057375999361373648500000000_00000000052124583871818676700000000_00000000047697026099599846900000000_00000000043921986390297891400000000_00000000040670959918440626000000000_00000000037846038080814731000000000_00000000035371546624050918600000000_00000000033188226133757891600000000_00000000031249112572895382000000000,
  02201848471039785470000000000000000_00067958257706163642300000000000000_00006292402832049613280000000000000_00000971021382721129931000000000000_00000209760133301372003000000000000_00000058238266655212698000000000000_00000019743813985305032900000000000_00000007893463633503358480000000000_00000003625944272194251990000000000_00000001874064584686594780000000000_00000001070551451407058270000000000_00000000665438901113938610000000000_00000000443942427227283186000000000_00000000314111129543995890000000000_00000000233322235007138155000000000_00000000180400763325629435000000000_00000000144168629001169743000000000_00000000118401378814258911000000000_00000000099465684414890403800000000_00000000085150316046121362200000000_00000000074058711183398775300000000_00000000065279230711812869800000000_00000000058198976455288290000000000_00000000052394872130597538400000000_00000000047567867490168873500000000_00000000043502019245730308500000000_00000000040038361051717065700000000_00000000037057810255691101100000000_00000000034469737055753017200000000_00000000032204164466707073200000000_00000000030206346298737793700000000_00000000028432933356987426200000000,
  02195083946315606860000000000000000_00067333837810875087900000000000000_00006196339869679333360000000000000_00000950333302678456151000000000000_00000204033725081907877000000000000_00000056302755971109650700000000000_00000018972289405006438000000000000_00000007540063840064031180000000000_00000003443781488403809510000000000_00000001770263933247499510000000000_00000001006175878917368490000000000_00000000622577066818050938000000000_00000000413668449626346436000000000_00000000291657366922158992000000000_00000000215983675702515798000000000_00000000166559678416462588000000000_00000000132811931040308665000000000_00000000108868486053187368000000000_00000000091310304689119021700000000_00000000078061355659543743600000000_00000000067813245144967124000000000_00000000059713557421698598800000000_00000000053190242028735030300000000_00000000047849073996834313000000000_00000000043411822050764875700000000_00000000039677858941447888000000000_00000000036499684877839402700000000_00000000033766939249362287800000000_00000000031395723304253008200000000_00000000029321323599574960300000000_00000000027493159919590334200000000_00000000025871217058243332100000000,
  02188381386690458800000000000000000_00066718921717823896700000000000000_00006102317402671850780000000000000_00000930208313034276509000000000000_00000198497068457468023000000000000_00000054442660679336212700000000000_00000018235211025540058400000000000_00000007204371874909644340000000000_00000003271683911239641470000000000_00000001672691483417362200000000000_00000000945938791156873689000000000_00000000582633194491156178000000000_00000000385555415802200222000000000_00000000270870108538737218000000000_00000000199973996815898782000000000_00000000153807929045019508000000000_00000000122368901384487193000000000_00000000100116704594623554000000000_00000000083833500787420718400000000_00000000071569929699699444000000000_00000000062100043393410167700000000_00000000054626705614188782200000000_00000000048615930073954049400000000_00000000043700335925106933100000000_00000000039621035167548812100000000_00000000036191612445898383500000000_00000000033275195114524168900000000_00000000030769497136748662700000000_00000000028596844741974135100000000_00000000026697387661832343900000000_00000000025024391373892788900000000_00000000023540915817775466700000000,
  02181739851893530340000000000000000_00066113308161611900300000000000000_00006010280058318123250000000000000_00000910627810037969175000000000000_00000193142791209943962000000000000_00000052654623047026126300000000000_00000017530857369080421300000000000_00000006885411680618545140000000000_00000003109048935504384550000000000_00000001580947623210334860000000000_00000000889558924344329557000000000_00000000545399305260528294000000000_00000000359443141919959509000000000_00000000251621763950469720000000000_00000000185188705728157438000000000_00000000142057943287366022000000000_00000000112764724371965446000000000_00000000092081077777011294900000000_00000000076978102562482071100000000_00000000065625135066010595600000000_00000000056873331210331098600000000_00000000049977158848184486900000000_00000000044438105843589271500000000_00000000039913770464485765000000000_00000000036163238612040726600000000_00000000033013283465348746300000000_00000000030336882396948457100000000_00000000028039225133478219800000000_00000000026048395294176215500000000_00000000024309036185895676000000000_00000000022777963555586603200000000_00000000021421073916887752200000000,
  02175158421506757030000000000000000_00065516801322307935800000000000000_00005920174287975609920000000000000_00000891573910654954565000000000000_00000187963848447323010000000000000_00000050935452707600875000000000000_00000016857601615965409300000000000_00000006582265508252779620000000000_00000002955312544886555940000000000_00000001494659853298596800000000000_00000000836775032503472953000000000_00000000510682817741412495000000000_00000000335183695014893079000000000_00000000233794766319707525000000000_00000000171531703526327289000000000_00000000131229315322453440000000000_00000000103930802452952394000000000_00000000084702118897270838800000000_00000000070691808067663921500000000_00000000060180444727274937700000000_00000000052091301530291729100000000_00000000045727024975419389500000000_00000000040622166879066162200000000_00000000036457571566263257100000000_00000000033009028013745057800000000_00000000030115549370947911700000000_00000000027659243504828504000000000_00000000025552222054152817700000000_00000000023727893958444813500000000_00000000022135054881726421800000000_00000000020733798327223545900000000_00000000019492637482005998100000000,
  02168636194429275700000000000000000_00064929210646590911600000000000000_00005831948296605792900000000000000_00000873029420655380620000000000000_00000182953506330790794000000000000_00000049282117480175608300000000000_00000016213905962355684600000000000_00000006294070190759642910000000000_00000002809946698267749020000000000_00000001413480860218560090000000000_00000000787344407332359741000000000_00000000478305371698434976000000000_00000000312640431431502338000000000_00000000217280767860351261000000000_00000000158914598592145440000000000_00000000121248210177257227000000000_00000000095804232821651128700000000_00000000077925345624630565700000000_00000000064926765197911480400000000_00000000055193328535056839000000000_00000000047715768671119472100000000_00000000041841717852217724600000000_00000000037136548754297479200000000_00000000033302741158429946400000000_00000000030131607640550333100000000_00000000027473522010034130800000000_00000000025219056385027374800000000_00000000023286732010617500400000000_00000000021614883872219645700000000_00000000020156144954032738100000000_00000000018873635120841472900000000_00000000017738281530524056700000000,
  02162172288359418020000000000000000_00064350350675782237800000000000000_00005745551975422972610000000000000_00000854977804285119926000000000000_00000178105326692291843000000000000_00000047691734734993840400000000000_00000015598316337800556300000000000_00000006020013668350407130000000000_00000002672456901500671260000000000_00000001337086731865412470000000000_00000000741041511030038231000000000_00000000448101743952299120000000000_00000000291687112383015695000000000_00000000201979901033983332000000000_00000000147256077175118975000000000_00000000112046818548955294000000000_00000000088327328576906598100000000_00000000071700854410844206100000000_00000000059639189569821273900000000_00000000050624907120530795400000000_00000000043711852466284184800000000_00000000038289667151312475200000000_00000000033952456924788215000000000_00000000030422840082795156600000000_00000000027506558007673212800000000_00000000025064529986381994600000000_00000000022995175430712182000000000_00000000021222951279589084400000000_00000000019690749569757358000000000_00000000018354749721506458200000000_00000000017180866033789542400000000_00000000016142252774631240400000000,
  02155765839293568960000000000000000_00063780040880464260900000000000000_00005660936837500468580000000000000_00000837403155432704093000000000000_00000173413152489703671000000000000_00000046161563270129836000000000000_00000015009457458416675000000000000_00000005759331748002135930000000000_00000002542379950978918890000000000_00000001265175304428906530000000000_00000000697656713230906613000000000_00000000419918849139185159000000000_00000000272207090333037816000000000_00000000187800100040868784000000000_00000000136481326158546647000000000_00000000103562857445363085000000000_00000000081447180587623524900000000_00000000065982931433343071900000000_00000000054789015479953462200000000_00000000046439635970819455800000000_00000000040047690115898765800000000_00000000035042053781280145100000000_00000000031043622356522655200000000_00000000027793761215944940500000000_00000000025111624266415139400000000_00000000022867920476620157800000000_00000000020968345188255844800000000_00000000019342852604526014300000000_00000000017938550778235215700000000_00000000016714896964935704300000000_00000000015640385916764084500000000_00000000014690226744912090600000000,
  02149416001041246200000000000000000_00063218105501396303700000000000000_00005578055956188736250000000000000_00000820290170210935375000000000000_00000168871094050137327000000000000_00000044688995667039924200000000000_00000014446028193104725000000000000_00000005511305080543614950000000000_00000002419281836361050220000000000_00000001197464630772333440000000000_00000000656995123905759376000000000_00000000393614818533600889000000000_00000000254092560423361876000000000_00000000174656477608986183000000000_00000000126521503634238538000000000_00000000095739112750423556700000000_00000000075115256570135693900000000_00000000060729696909881212700000000_00000000050339577057862522900000000_00000000042605017037129314200000000_00000000036694173310868429100000000_00000000032072568643149674300000000_00000000028386078816968215500000000_00000000025393522790736853900000000_00000000022926523508415160800000000_00000000020864878824524300400000000_00000000019121030828594783900000000_00000000017630025354029614200000000_00000000016342871252738591600000000_00000000015222055574340678100000000_00000000014238456088458333700000000_00000000013369177926983579100000000,
  02143121944755784580000000000000000_00062664373396454062900000000000000_00005496863906207794130000000000000_00000803624120876705880000000000000_00000164473516055009112000000000000_00000043271551094720832900000000000_00000013906797221821626800000000000_00000005275256340001509460000000000_00000002302755790771728560000000000_00000001133691561037715220000000000_00000000618875514739387838000000000_00000000369058150698760805000000000_00000000237243871650350101000000000_00000000162470752503778580000000000_00000000117313253274049608000000000_00000000088523020155494548900000000_00000000069287034186865671000000000_00000000055902779898743920200000000_00000000046257316983231349100000000_00000000039091335460527334700000000_00000000033624708401492426500000000_00000000029357192655896620400000000_00000000025957959899825427100000000_00000000023202080112942080400000000_00000000020932769288852418500000000_00000000019038264313574369500000000_00000000017437263870256367700000000_00000000016069530102165567700000000_00000000014889681286245063100000000_00000000013863005195510044600000000_00000000012962580435835308900000000_00000000012167261723872186300000000,
  02136882858480036300000000000000000_00062118677893331502300000000000000_00005417316707283775790000000000000_00000787390831017042420000000000000_00000160215025223449920000000000000_00000041906868534256674100000000000_00000013390598966401271000000000000_00000005050547591005721830000000000_00000002192420477687969050000000000_00000001073610426978947140000000000_00000000583129322092450683000000000_00000000346126928236098028000000000_00000000221568892930539607000000000_00000000151170723565226686000000000_00000000108798258826785707000000000_00000000081866281202241085400000000_00000000063921665251447135700000000_00000000051467020949943700600000000_00000000042511520367102829700000000_00000000035871419214043968600000000_00000000030814997579302982500000000_00000000026873996166620061200000000_00000000023739314027470071300000000_00000000021201154029548285800000000_00000000019113511824682478300000000_00000000017372460662492711000000000_00000000015902501778123141900000000_00000000014647766326187044800000000_00000000013566212654668467600000000_00000000012625717694663095200000000_00000000011801392772250884900000000_00000000011073707165337552400000000,
  02130697946706523260000000000000000_00061580856647757046400000000000000_00005339371770206407020000000000000_00000771576651933600542000000000000_00000156090458653345302000000000000_00000040592700397417669300000000000_00000012896329775784335500000000000_00000004836577831090751600000000000_00000002087918304534824230000000000_00000001016991822186001620000000000_00000000549599725204557084000000000_00000000324708095371079278000000000_00000000206982429597643575000000000_00000000140689786430194614000000000_00000000100922835380314996000000000_00000000075724511461641016000000000_00000000058981668377298143700000000_00000000047390200202152688400000000_00000000039074071607485213000000000_00000000032920419653774484300000000_00000000028242839220833790900000000_00000000024602956028839008800000000_00000000021711935831899469800000000_00000000019374074652575734600000000_00000000017453392462852711000000000_00000000015853239919752228800000000_00000000014503500186445316400000000_00000000013352352035411735400000000_00000000012360844869690454400000000_00000000011499249367514456000000000_00000000010744554428525930100000000_00000000010078719383922717200000000,
  02124566429951501940000000000000000_00061050751506987865300000000000000_00005262987845190786550000000000000_00000756168440161773237000000000000_00000152094872781844500000000000000_00000039326906514723460400000000000_00000012422944348785459400000000000_00000004632780695689278670000000000_00000001988913853767675420000000000_00000000963621470972023188000000000_00000000518140793800125441000000000_00000000304696791539613765000000000_00000000193405686241006935000000000_00000000130966489419571785000000000_00000000093637554313343763100000000_00000000070056918128244077100000000_00000000054432647636537101900000000_00000000043642788729357733200000000_00000000035919232221363374000000000_00000000030215611148458896300000000_00000000025887945705914416900000000_00000000022525788785011949600000000_00000000019859212457799959400000000_00000000017705638976348360000000000_00000000015938411139778668800000000_00000000014467638552444813900000000_00000000013228196607776157000000000_00000000012172014252530490600000000_00000000011263001714514417700000000_00000000010473642916759958700000000_00000000009782661145539147020000000_00000000009173390967063583960000000,
  02118487544342424300000000000000000_00060528208378357392200000000000000_00005188124972433045770000000000000_00000741153536064275842000000000000_00000148223532929553043000000000000_00000038107448470011513900000000000_00000011969452378701493000000000000_00000004438622314501286020000000000_00000001895092422912711200000000000_00000000913299179255476922000000000_00000000488616699722276096000000000_00000000285995736531239995000000000_00000000180765772132689192000000000_00000000121944125364080903000000000_00000000086896899121593891500000000_00000000064826004541480705000000000_00000000050243035006042962100000000_00000000040197721132143416300000000_00000000033023437830017754000000000_00000000027736208118178820500000000_00000000023731777172416452000000000_00000000020625798528419324300000000_00000000018165983461360936100000000_00000000016181981148195541300000000_00000000014555805668308350300000000_00000000013203844633506028100000000_00000000012065604592411692900000000_00000000011096489366383472700000000_00000000010263057130762651900000000_00000000009539838310830656480000000_00000000008907158421846015760000000_00000000008349621375948822320000000,
  02112460541218300350000000000000000_00060013077102661962300000000000000_00005114744434755301410000000000000_00000726519743442534934000000000000_00000144471903394842817000000000000_00000036932384260065567200000000000_00000011534915405154654900000000000_00000004253599308742418410000000000_00000001806158665677809380000000000_00000000865837861285379933000000000_00000000460900987646160024000000000_00000000268514663104885643000000000_00000000168995245799289315000000000_00000000113570356412069517000000000_00000000080658949541150314700000000_00000000059997299358408330800000000_00000000046383854569127056000000000_00000000037030187542721788800000000_00000000030365112634030588800000000_00000000025463197959708690500000000_00000000021757389805433325200000000_00000000018887738146175581000000000_00000000016618413096822843700000000_00000000014790454263626195600000000_00000000013293941792984241800000000_00000000012051095130080737700000000_00000000011005717396498060800000000_00000000010116432464119640400000000_00000000009352249609352111880000000_00000000008689591717491036780000000_00000000008110264547005263860000000_00000000007600043695736795830000000,
  02106484686742488530000000000000000_00059505211332182642700000000000000_00005042808712240817850000000000000_00000712255310112460826000000000000_00000140835638066786716000000000000_00000035799863259268485800000000000_00000011118443859575629900000000000_00000004077236919534100120000000000_00000001721835326837159800000000000_00000000821062636532646101000000000_00000000434875900314808792000000000_00000000252169793323020902000000000_00000000158031695577780680000000000_00000000105796869109278879000000000_00000000074885091609448729900000000_00000000055539108296552781900000000_00000000042828506616302021200000000_00000000034117443371805706600000000_00000000027924499859806639600000000_00000000023379188469966129300000000_00000000019949297382842778400000000_00000000017297682760466362300000000_00000000015203873890508725800000000_00000000013519522658103050000000000_00000000012142213049570583700000000_00000000010999582385675534300000000_00000000010039420302073659900000000_00000000009223334831464951650000000_00000000008522604315099651210000000_00000000007915401779226989590000000_00000000007384900621422251350000000_00000000006917958048890187690000000,
  02100559261527460310000000000000000_00059004468413147967500000000000000_00004972281438765484090000000000000_00000698348909394234586000000000000_00000137310571527162162000000000000_00000034708121470555907300000000000_00000010719194291669826500000000000_00000003909087258399960380000000000_00000001641862064138490180000000000_00000000778809991508010615000000000_00000000410431754100647372000000000_00000000236883355152933696000000000_00000000147817353254166286000000000_00000000098579057266432637800000000_00000000069539751503497920900000000_00000000051422286543041698600000000_00000000039552569948458916300000000_00000000031438635270505309100000000_00000000025683506792093555600000000_00000000021468268501076020300000000_00000000018293344912157571800000000_00000000015842914290149022700000000_00000000013910840500203728600000000_00000000012358663759550914300000000_00000000011090949551397127500000000_00000000010040368970486067700000000_00000000009158410809708826320000000_00000000008409448883298105580000000_00000000007766862244725858730000000_00000000007210442564051087390000000_00000000006724626927243228090000000_00000000006297271064401170720000000,
  02094683560271104290000000000000000_00058510709272452439300000000000000_00004903127360336601970000000000000_00000684789622468604538000000000000_00000133892710613778335000000000000_00000033655477045168649100000000000_00000010336366765080663800000000000_00000003748727671482716590000000000_00000001565994350985289750000000000_00000000738927001669903633000000000_00000000387466361026837801000000000_00000000222583136161905534000000000_00000000138298738121688591000000000_00000000091875730337286006500000000_00000000064590151177076716400000000_00000000047620030088487403500000000_00000000036533620831724407200000000_00000000028974641912836025300000000_00000000023625563127985618900000000_00000000019715880691846150000000000_00000000016776593296497880400000000_00000000014511816150531770000000000_00000000012728792947080736900000000_00000000011298278649476464600000000_00000000010131334903855254300000000_00000000009165310148646137760000000_00000000008355125994792661890000000_00000000007667719853537300280000000_00000000007078415781485357140000000_00000000006568502585957810800000000_00000000006123585072741204120000000_00000000005732440851112785500000000,
  02088856891404152940000000000000000_00058023798308454319300000000000000_00004835312295154597520000000000000_00000671566921554876124000000000000_00000130578226419074604000000000000_00000032640326054839564200000000000_00000009969202411271891100000000000_00000003595759209696873830000000000_00000001494002454111277260000000000_00000000701270608956794085000000000_00000000365884493686998926000000000_00000000209202071388329199000000000_00000000129426329013456814000000000_00000000085648845219147057100000000_00000000060006083985273451600000000_00000000044107684392383439200000000_00000000033751067186576675900000000_00000000026707928325275111600000000_00000000021735491498263961800000000_00000000018108705221906675000000000_00000000015387214061312056700000000_00000000013293777196296334500000000_00000000011648128388711558300000000_00000000010329610556802606600000000_00000000009255330520072117370000000_00000000008366983278789096300000000_00000000007622676382531045190000000_00000000006991723634083864180000000_00000000006451250067430173490000000_00000000005983929344344266790000000_00000000005576445385255151570000000_00000000005218426973706610030000000,
  02083078576748332710000000000000000_00057543603285684453700000000000000_00004768803095317620770000000000000_00000658670653868304264000000000000_00000127363446699520453000000000000_00000031661138501110348600000000000_00000009616981131401225880000000000_00000003449805197589129260000000000_00000001425670480893576840000000000_00000000665706950820479250000000000_00000000345597389781758242000000000_00000000196677862705178611000000000_00000000121154262064354991000000000_00000000079863259561309873000000000_00000000055759708637179812100000000_00000000040862568922341358400000000_00000000031185996715555932000000000_00000000024622412600107413800000000_00000000019999389102605030600000000_00000000016634553627263225400000000_00000000014114393258944983900000000_00000000012179104091914004500000000_00000000010660080675769194000000000_00000000009444670577904871650000000_00000000008455606676024077150000000_00000000007638623525848685250000000_00000000006954785754939932970000000_00000000006375610207799974400000000_00000000005879889666838155180000000_00000000005451578881776725710000000_00000000005078359075562691790000000_00000000004750644975686928860000000,
  02077347951184854430000000000000000_00057069995233305675200000000000000_00004703567610093109010000000000000_00000646091026316969438000000000000_00000124244848672827708000000000000_00000030716454547461314800000000000_00000009279019436654311900000000000_00000003310509894193641340000000000_00000001360795491347448090000000000_00000000632110736951898562000000000_00000000326522293248037442000000000_00000000184952627207452650000000000_00000000113440052140491790000000000_00000000074486504825680905200000000_00000000051825359957029523000000000_00000000037863816233416109000000000_00000000028821037785120592800000000_00000000022703343929985432900000000_00000000018404519497032427200000000_00000000015282271800348626500000000_00000000012948243746046336100000000_00000000011158941366219504900000000_00000000009756647002470574380000000_00000000008636169979496319930000000_00000000007725479702714759200000000_00000000006974065318008609870000000_00000000006345736356069486310000000_00000000005814052170719037710000000_00000000005359350042088936050000000_00000000004966769904987899800000000_00000000004624914740021326560000000_00000000004324925035268986770000000,
  02071664362332876600000000000000000_00056602848347169717100000000000000_00004639574650684267660000000000000_00000633818590900447632000000000000_00000121219052181370996000000000000_00000029804880960857486300000000000_00000008954668418155119760000000000_00000003177537239646491550000000000_00000001299186670211541180000000000_00000000600364670181454478000000000_00000000308582029193788769000000000_00000000173972572352857869000000000_00000000106244336042643849000000000_00000000069488577489375139000000000_00000000048179375061698432300000000_00000000035092224367057060300000000_00000000026640231978792424500000000_00000000020937190993037810900000000_00000000016939213655774788300000000_00000000014041651374554673100000000_00000000011879725099799620700000000_00000000010225198473683560600000000_00000000008930521022224780760000000_00000000007897458498501338890000000_00000000007058854767065486250000000_00000000006367689033640510800000000_00000000005790319009855189060000000_00000000005302197884354068010000000_00000000004885093406680535790000000_00000000004525242055350393680000000_00000000004212098806303472580000000_00000000003937474377856439780000000,
  02066027170237589250000000000000000_00056142039895325598200000000000000_00004576793956423085840000000000000_00000621844230774679163000000000000_00000118282813201508646000000000000_00000028925087750172332500000000000_00000008643311838170100030000000000_00000003050569681765633810000000000_00000001240664554870883990000000000_00000000570358908303506838000000000_00000000291704610068767763000000000_00000000163687695766525728000000000_00000000099530635744405313000000000_00000000064841746912341211700000000_00000000044799933679272730600000000_00000000032530121452797091200000000_00000000024628917331541673800000000_00000000019311539801763559800000000_00000000015592779506134466400000000_00000000012903348763342364800000000_00000000010900570503651521600000000_00000000009370483244938482450000000_00000000008175031855879850910000000_00000000007222468105397202690000000_00000000006450173742328594970000000_00000000005814372449405568520000000_00000000005283787708796406600000000_00000000004835628840495470600000000_00000000004452988559545506830000000_00000000004123117952666240690000000_00000000003836259564438368720000000_00000000003584843103118594030000000,
  02060435747067580250000000000000000_00055687450126840098200000000000000_00004515196162324964190000000000000_00000610159146949410844000000000000_00000115433017679709627000000000000_00000028075804989750457800000000000_00000008344364334882035930000000000_00000002929307077212074630000000000_00000001185060315177335500000000000_00000000541990563821486420000000000_00000000275822870702392866000000000_00000000154051507787312006000000000_00000000093265140067255951200000000_00000000060520378515180887300000000_00000000041666911440275081300000000_00000000030161241490493821900000000_00000000022773621340151419700000000_00000000017815000205548402700000000_00000000014355419204715895800000000_00000000011858811187967086400000000_00000000010003219992189470800000000_00000000008588041163785469070000000_00000000007484088470893762730000000_00000000006605661745149010110000000_00000000005894367713575608820000000_00000000005309446522851321160000000_00000000004821818271505714330000000_00000000004410320858651267850000000_00000000004059274340705777920000000_00000000003756868670284416010000000_00000000003494074457488502580000000_00000000003263893115867370500000000,
  02054889476821159500000000000000000_00055238962183797271100000000000000_00004454752767943301060000000000000_00000598754845586437945000000000000_00000112666675677528276000000000000_00000027255819817116686500000000000_00000008057269733528758210000000000_00000002813465662227422330000000000_00000001132215081516064210000000000_00000000515163238837616812000000000_00000000260874130024219710000000000_00000000145020774986421175000000000_00000000087416503324568301600000000_00000000056500771024205949800000000_00000000038761745070962753700000000_00000000027970610377531549800000000_00000000021061962921766984900000000_00000000016437120306574309000000000_00000000013218153486998779800000000_00000000010900209086161522700000000_00000000009180759498563257540000000_00000000007871699957724391210000000_00000000006852128956139855260000000_00000000006041986613240518290000000_00000000005386813704531133150000000_00000000004848655121190304260000000_00000000004400470703412884700000000_00000000004022608770621953840000000_00000000003700526380926377820000000_00000000003423282330619820680000000_00000000003182520335828581020000000_00000000002971769878274119240000000,
  02049387755041329520000000000000000_00054796462016349955600000000000000_00004395436107465472840000000000000_00000587623125868614480000000000000_00000109980915808532586000000000000_00000026463973594535043300000000000_00000007781499457184567520000000000_00000002702777088294564880000000000_00000001081979317733578120000000000_00000000489786592521074245000000000_00000000246799877452346506000000000_00000000136555283029856291000000000_00000000081955659585669608200000000_00000000052761006643291146100000000_00000000036067308507652663200000000_00000000025944441324579569300000000_00000000019482562563618056300000000_00000000015168308112747179600000000_00000000012172752480307485200000000_00000000010020374347292128600000000_00000000008426865196838012700000000_00000000007215819034430673250000000_00000000006274074259301272950000000_00000000005526831563794276520000000_00000000004923295249082343720000000_00000000004428118342844478640000000_00000000004016154927872114150000000_00000000003669154277929698100000000_00000000003373626847686685950000000_00000000003119435538382079090000000_00000000002898846405932923120000000_00000000002705876726718100790000000,
  02043929988539103450000000000000000_00054359838300701947500000000000000_00004337219320994564370000000000000_00000576756068411239353000000000000_00000107372979951288651000000000000_00000025699159224770629800000000000_00000007516551030911030540000000000_00000002596987518394181310000000000_00000001034212235789642010000000000_00000000465775938781961018000000000_00000000233545482091358495000000000_00000000128617617385541183000000000_00000000076855651320352853300000000_00000000049280813106027697100000000_00000000033567799032993827100000000_00000000024070038875921304900000000_00000000018024959971579269400000000_00000000013999759809572765100000000_00000000011211672423214544000000000_00000000009212743867998888440000000_00000000007735752676323849100000000_00000000006615243337954731130000000_00000000005745285992283870100000000_00000000005055988282728570000000000_00000000004499966464522948590000000_00000000004044299110091610590000000_00000000003665599584906707910000000_00000000003346916696220095650000000_00000000003075736916753333450000000_00000000002842667394488300110000000_00000000002640549629059302760000000_00000000002463851519958445360000000,
  02038515595124883030000000000000000_00053928982359904926100000000000000_00004280076326963966970000000000000_00000566146024188968472000000000000_00000104840218223437901000000000000_00000024960318612013610300000000000_00000007261946673421245320000000000_00000002495856779831998650000000000_00000000988781249223633317000000000_00000000443051871957013918000000000_00000000221059923025307517000000000_00000000121172960494836443000000000_00000000072091471284513171900000000_00000000046041436647782777700000000_00000000031248632610145362400000000_00000000022335710816602518800000000_00000000016679538584339624000000000_00000000012923394086152573900000000_00000000010327997782769835600000000_00000000008471307966556709500000000_00000000007102130525636808780000000_00000000006065261236097059820000000_00000000005261527945119927870000000_00000000004625615891633768670000000_00000000004113319314289598640000000_00000000003693972740041006210000000_00000000003345823622101878780000000_00000000003053126326580933250000000_00000000002804271723156376450000000_00000000002590555856964898390000000_00000000002405352347467955190000000_00000000002243545406584787510000000,
  02033144003347620910000000000000000_00053503788087359382600000000000000_00004223981795634572960000000000000_00000555785603952854985000000000000_00000102380084202779198000000000000_00000024246440259490458100000000000_00000007017231970789991230000000000_00000002399157569891960880000000000_00000000945561462736948433000000000_00000000421539918477703965000000000_00000000209295539123710597000000000_00000000114188904137435522000000000_00000000067639916599622219500000000_00000000043025525016189021400000000_00000000029096347659519234200000000_00000000020730687309228555700000000_00000000015437456373966119800000000_00000000011931791999092349400000000_00000000009515388305075251430000000_00000000007790563234537148090000000_00000000006521157941357265790000000_00000000005561566084744084790000000_00000000004818930980753236070000000_00000000004232208677855867040000000_00000000003760153775890870410000000_00000000003374199227454736180000000_00000000003054110426968917620000000_00000000002785260217209998910000000_00000000002556877567662559600000000_00000000002360896236352453200000000_00000000002191181936037422730000000_00000000002043003519023950290000000,
  02027814652241502000000000000000000_00053084151872913701000000000000000_00004168911123626766490000000000000_00000545667668113487152000000000000_00000099990130382088660800000000000_00000023556556995816092300000000000_00000006781974627103502410000000000_00000002306674710830426920000000000_00000000904435195388303164000000000_00000000401170212643401331000000000_00000000198207796900560271000000000_00000000107635275819071800000000000_00000000063479454063231111600000000_00000000040217019710930755300000000_00000000027098516585652027700000000_00000000019245046658656698100000000_00000000014290582403013997500000000_00000000011018141902519345100000000_00000000008768030574998799510000000_00000000007165469441144833660000000_00000000005988406009984962740000000_00000000005100221146234569020000000_00000000004413961012169202400000000_00000000003872566673413381460000000_00000000003437550655162460540000000_00000000003082297996851770430000000_00000000002787984272675847010000000_00000000002541020100225051190000000_00000000002331411175108766470000000_00000000002151681632407768400000000_00000000001996152295519251290000000_00000000001860447418938518130000000,
  02022526991079889290000000000000000_00052669972531460203600000000000000_00004114840409441748550000000000000_00000535785317067481153000000000000_00000097668003845179729100000000000_00000022889743822634142900000000000_00000006555763287278882720000000000_00000002218204450967682300000000000_00000000865291535079394771000000000_00000000381877194762584268000000000_00000000187755075078714216000000000_00000000101483978103815712000000000_00000000059590095805241827000000000_00000000037601056710014855800000000_00000000025243664419373070200000000_00000000017869647153524578800000000_00000000013231438653457987900000000_00000000010176189012959333100000000_00000000008080593697580766850000000_00000000006591410139167009470000000_00000000005499822342735368730000000_00000000004677627567335284060000000_00000000004043389789816198030000000_00000000003543768830084731810000000_00000000003142846811132999610000000_00000000002815824903100046120000000_00000000002545188869573623500000000_00000000002318312307836636340000000_00000000002125920819389056990000000_00000000001961085136424506210000000_00000000001818547020379444180000000_00000000001694259134809137640000000,
  02017280479136289230000000000000000_00052261151233931408100000000000000_00004061746429928946820000000000000_00000526131881945799407000000000000_00000095411442152427949900000000000_00000022245115876553745300000000000_00000006338206427596223200000000000_00000002133553808856837290000000000_00000000828025922175533085000000000_00000000363599330054587569000000000_00000000177898464615548745000000000_00000000095708839897656512500000000_00000000055953284475883873700000000_00000000035163875000521103200000000_00000000023521193993188796000000000_00000000016596064479935047200000000_00000000012253146683963839400000000_00000000009400189214865918100000000_00000000007448188747236395650000000_00000000006064156652092341390000000_00000000005051698770845053170000000_00000000004290495148385101520000000_00000000003704268251388007870000000_00000000003243148560504613800000000_00000000002873612576858408990000000_00000000002572551279509838830000000_00000000002323667833627448670000000_00000000002115229489773899440000000_00000000001938629146647207450000000_00000000001787443639427682980000000_00000000001656804089358835080000000_00000000001542966646992400990000000,
  02012074585452101420000000000000000_00051857591440603962800000000000000_00004009606617658356420000000000000_00000516700915763508318000000000000_00000093218269424662341200000000000_00000021621826498822208500000000000_00000006128931309777961600000000000_00000002052539957717889630000000000_00000000792539760260540246000000000_00000000346278846823963949000000000_00000000168601583041132270000000000_00000000090285478768154502300000000_00000000052551787216705427400000000_00000000032892732287583832800000000_00000000021921317116118054500000000_00000000015416534245052593100000000_00000000011349378709722871500000000_00000000008684866746429685290000000_00000000006866331661485979760000000_00000000005579835149886553620000000_00000000004640641834695686100000000_00000000003935815658843818550000000_00000000003393902208012918230000000_00000000002968271435597895610000000_00000000002627631180765931010000000_00000000002350444850467722910000000_00000000002121546899857497370000000_00000000001930033969924339950000000_00000000001767917543465353780000000_00000000001629243100983046260000000_00000000001509501940685998940000000_00000000001405230688723272290000000,
  02006908788610926130000000000000000_00051459198836621741900000000000000_00003958399039158641810000000000000_00000507486184951667028000000000000_00000091086392614960878200000000000_00000021019065406575716700000000000_00000005927582994721485470000000000_00000001974989647517547700000000000_00000000758740052168417047000000000_00000000329861492529952284000000000_00000000159830402048054941000000000_00000000085191173456774437000000000_00000000049369597725919521500000000_00000000030775827306488136600000000_00000000020434991258467409600000000_00000000014323899187194978600000000_00000000010514312733540862200000000_00000000008025375436202506150000000_00000000006330909283900948790000000_00000000005134896546394471620000000_00000000004263545823447017460000000_00000000003610838476060948810000000_00000000003109830160914617600000000_00000000002716914847338643070000000_00000000002402879990511936210000000_00000000002147652342054722100000000_00000000001937117724354874750000000_00000000001761142594765580750000000_00000000001612311910696313570000000_00000000001485105146531773360000000_00000000001375346806421126050000000_00000000001279832743506101970000000,
  02001782576519212160000000000000000_00051065881269653402200000000000000_00003908102373983709460000000000000_00000498481661253054883000000000000_00000089013797958484395900000000000_00000020436056959886829000000000000_00000005733823412243858490000000000_00000001900738662254446280000000000_00000000726539059566857860000000000_00000000314296306475528508000000000_00000000151553087353040193000000000_00000000080404745806581069900000000_00000000046391845784579043400000000_00000000028802228209658417800000000_00000000019053861297574264700000000_00000000013311560684535397200000000_00000000009742591388386000190000000_00000000007417263189307956650000000_00000000005838148286477356560000000_00000000004726088974586634870000000_00000000003917568143189098320000000_00000000003313048343747115450000000_00000000002849803060848465780000000_00000000002487049462814154450000000_00000000002197513417255080440000000_00000000001962483639021245810000000_00000000001768823132505546700000000_00000000001607112939462445650000000_00000000001470469716187969520000000_00000000001353774873133881550000000_00000000001253161191812063920000000_00000000001165664130221168200000000,
  01996695446193035610000000000000000_00050677548689603347800000000000000_00003858695894572241960000000000000_00000489681513964403544000000000000_00000086998547591043519000000000000_00000019872058519179733800000000000_00000005547330483433170390000000000_00000001829631310175661330000000000_00000000695853984490476173000000000_00000000299535407934719194000000000_00000000143739849925114365000000000_00000000075906451388762511400000000_00000000043604713660694899800000000_00000000026961806543330299100000000_00000000017770205912684247900000000_00000000012373434207047829400000000_00000000009029284180414314760000000_00000000006856439447804915670000000_00000000005384586724949577120000000_00000000004350432617080600090000000_00000000003600106811065601360000000_00000000003040145064556623000000000_00000000002611765839232895400000000_00000000002276822311048771150000000_00000000002009847332719125240000000_00000000001793397350078132660000000_00000000001615243683853453190000000_00000000001466630749595794650000000_00000000001341168211106852690000000_00000000001234109754389134350000000_00000000001141873395908634940000000_00000000001061716077164162980000000,
  01991646903550808090000000000000000_00050294113090298507400000000000000_00003810159446866371920000000000000_00000481080102508703667000000000000_00000085038776327619476900000000000_00000019326358887913659300000000000_00000005367797292420602770000000000_00000001761519944804885180000000000_00000000666606671335325630000000000_00000000285533798623892750000000000_00000000136362807743928774000000000_00000000071677878167376804500000000_00000000040995358854931406700000000_00000000025245176368154100200000000_00000000016576888251156007800000000_00000000011503908386089430000000000_00000000008369852847838119460000000_00000000006339145373340281400000000_00000000004967048001831491180000000_00000000004005196688721777150000000_00000000003308779890549659350000000_00000000002790024957529122090000000_00000000002393840555034582110000000_00000000002084541358135691830000000_00000000001838344864595826200000000_00000000001638987655828603160000000_00000000001475085435678685930000000_00000000001338498507489584740000000_00000000001223293704988493990000000_00000000001125069545201044420000000_00000000001040507979103000570000000_00000000000967070695224753439000000,
  01986636463211720610000000000000000_00049915488453076638200000000000000_00003762473431657273930000000000000_00000472671969322008985000000000000_00000083132688592554041200000000000_00000018798276835743073300000000000_00000005194931304592003830000000000_00000001696264514806130560000000000_00000000638723327931655896000000000_00000000272249178503168255000000000_00000000129395857315279979000000000_00000000067701852593186580100000000_00000000038551842694252202600000000_00000000023643638114177170600000000_00000000015467310519365073600000000_00000000010697807403254609400000000_00000000007760119575096462700000000_00000000005861926521762050050000000_00000000004582617031397439060000000_00000000003687878385669637380000000_00000000003041406699222667850000000_00000000002560763926032052880000000_00000000002194311015259411980000000_00000000001908661439060800540000000_00000000001681603447834270060000000_00000000001497972324920240090000000_00000000001347168797961773040000000_00000000001221625022108550100000000_00000000001115831804118506990000000_00000000001025707096047769380000000_00000000000948177091828259195000000_00000000000880892768579651598000000,
  01981663648299736540000000000000000_00049541590692205007900000000000000_00003715618786626969980000000000000_00000464451833039965638000000000000_00000081278555493588377100000000000_00000018287159697651775200000000000_00000005028453628448628540000000000_00000001633732140840194640000000000_00000000612134264409463349000000000_00000000259641773968412284000000000_00000000122814554229386195000000000_00000000063962352564818113100000000_00000000036263064319160775600000000_00000000022149126793865845300000000_00000000014435372180249806100000000_00000000009950356425071469980000000_00000000007196237823820749770000000_00000000005421607799042479110000000_00000000004228618418552529760000000_00000000003396183631551450570000000_00000000002795990635153024850000000_00000000002350601995422211020000000_00000000002011608739469237380000000_00000000001747771426293252600000000_00000000001538343020284932350000000_00000000001369181794239402670000000_00000000001230418382045598950000000_00000000001115015950600779150000000_00000000001017858526466431870000000_00000000000935159994605025961000000_00000000000864072586432773836000000_00000000000802422288700340642000000,
  01976727990252954000000000000000000_00049172337602061313100000000000000_00003669576969057082590000000000000_00000456414581970054575000000000000_00000079474712032367238800000000000_00000017792382044828013000000000000_00000004868098318504704350000000000_00000001573796717695077830000000000_00000000586773648661869149000000000_00000000247674177563003678000000000_00000000116596002101443835000000000_00000000060444426739086886700000000_00000000034118699646267927800000000_00000000020754164227305236200000000_00000000013475431465627206000000000_00000000009257149832939335240000000_00000000006674665562241086940000000_00000000005015270505843984370000000_00000000003902596479739098400000000_00000000003128009465953207550000000_00000000002570703481421577040000000_00000000002157929192021317450000000_00000000001844300150196242610000000_00000000001600582525865751740000000_00000000001407395261111010810000000_00000000001251549218293826680000000_00000000001123853754078543860000000_00000000001017765167839182270000000_00000000000928532214232023069000000_00000000000852642960004915861000000_00000000000787458841324933792000000_00000000000730967664223713035000000,
  01971829028638164830000000000000000_00048807648806011540900000000000000_00003624329939176634840000000000000_00000448555267836252454000000000000_00000077719554444435447800000000000_00000017313344423300592700000000000_00000004713611716775530550000000000_00000001516338540086802270000000000_00000000562579277295221505000000000_00000000236311198402071294000000000_00000000110718749283769042000000000_00000000057134119712476845700000000_00000000032109144921086191700000000_00000000019451814961684888200000000_00000000012582269935406105800000000_00000000008614122018606231710000000_00000000006192140693111581080000000_00000000004640231294494971990000000_00000000003602296948817789910000000_00000000002881427933939923740000000_00000000002363871060608210860000000_00000000001981272646283448950000000_00000000001691074881561955390000000_00000000001465917601366403100000000_00000000001287693779434050450000000_00000000001144101401415424870000000_00000000001026581012304489130000000_00000000000929046907847837040000000_00000000000847086172191725986000000_00000000000777440921778293907000000_00000000000717666232916683989000000_00000000000665899545367139008000000,
  01966966310970443470000000000000000_00048447445706922213700000000000000_00003579860144122291870000000000000_00000440869099783494287000000000000_00000076011537662139624300000000000_00000016849472156592742700000000000_00000004564751830564751310000000000_00000001461243950634248790000000000_00000000539492361032573049000000000_00000000225519722560652112000000000_00000000105162692784756749000000000_00000000054018402632724769400000000_00000000030225464506438512300000000_00000000018235645592849672700000000_00000000011751059837824509000000000_00000000008017520534621789740000000_00000000005745658497093827210000000_00000000004294022877163305440000000_00000000003325650224370679640000000_00000000002654671347548006140000000_00000000002173960122243993650000000_00000000001819284813318661150000000_00000000001550735107917151040000000_00000000001342701435098662550000000_00000000001178265168925395140000000_00000000001045950534139858740000000_00000000000937785114528736413000000_00000000000848108607851155978000000_00000000000772821966515947823000000_00000000000708902721678397259000000_00000000000654085196742840913000000_00000000000606645207144019668000000,
  01962139392537605490000000000000000_00048091651439247048500000000000000_00003536150502485667510000000000000_00000433351438629961441000000000000_00000074349172894211257100000000000_00000016400214208872316600000000000_00000004421287744404036460000000000_00000001408405008611315650000000000_00000000517457323609287730000000000_00000000215268582731546471000000000_00000000099908988872269303000000000_00000000051085108833501470000000000_00000000028459342579895549600000000_00000000017099687220259641000000000_00000000010977334045005267600000000_00000000007463881406724445400000000_00000000005332450923962314210000000_00000000003974376337744141690000000_00000000003070756027211999290000000_00000000002446118801373739850000000_00000000001999566356440697700000000_00000000001670732713315520050000000_00000000001422185802984607210000000_00000000001229951843713527860000000_00000000001078220851562265230000000_00000000000956286662150872756000000_00000000000856722888698507908000000_00000000000774264391917292433000000_00000000000705103324623914115000000_00000000000646435382175679330000000_00000000000596160824450237564000000_00000000000552683440702674105000000,
  01957347836229381090000000000000000_00047740190822630547000000000000000_00003493184389423487240000000000000_00000425997791355823716000000000000_00000072731025316148832800000000000_00000015965042105284771400000000000_00000004282999064133380930000000000_00000001357719178172441090000000000_00000000496421613266408510000000000_00000000205528436508904323000000000_00000000094939969878178407500000000_00000000048322874116533637400000000_00000000026803038439424542300000000_00000000016038400788335271500000000_00000000010256958356614265900000000_00000000006950006431169421610000000_00000000004949967578106942530000000_00000000003679204912528333590000000_00000000002835869348161567060000000_00000000002254283834588062310000000_00000000001839403436221146440000000_00000000001534488102956087260000000_00000000001304425847884007950000000_00000000001126771572949095880000000_00000000000986749640603416593000000_00000000000874370822578048457000000_00000000000782716665551537684000000_00000000000706889136838148072000000_00000000000643350582005627260000000_00000000000589498890498861648000000_00000000000543387948184522218000000_00000000000503539906716790951000000,
  01952591212371154700000000000000000_00047392990316973392800000000000000_00003450945622307506320000000000000_00000418803805817636260000000000000_00000071155711865838254900000000000_00000015543448906350159700000000000_00000004149675391236263100000000000_00000001309089034833827770000000000_00000000476335526009458742000000000_00000000196271652700074812000000000_00000000090239066756886046000000000_00000000045721081334390549100000000_00000000025249345140127822500000000_00000000015046645087026194700000000_00000000009586105981359002800000000_00000000006472942294701328630000000_00000000004595858257719049660000000_00000000003406589116189618870000000_00000000002619387576430104830000000_00000000002077803141024212060000000_00000000001692292999568639050000000_00000000001409518496713540280000000_00000000001196539913615676960000000_00000000001032340902790998090000000_00000000000903110959064576916000000_00000000000799528788263299207000000_00000000000715148477759998011000000_00000000000645413068047659054000000_00000000000587035626818080253000000_00000000000537601451721219245000000_00000000000495306668296980435000000_00000000000458782908941734588000000,
  01947869098562127180000000000000000_00047049977978906792300000000000000_00003409418446892135250000000000000_00000411765265678132817000000000000_00000069621899139153433000000000000_00000015134948233488002500000000000_00000004021115825661604670000000000_00000001262421989073025760000000000_00000000457152039857917688000000000_00000000187472205111280351000000000_00000000085790736983979046300000000_00000000043269808953767290300000000_00000000023791551206740423200000000_00000000014119647202679140700000000_00000000008961234021612141210000000_00000000006029961368337148330000000_00000000004267956918861290910000000_00000000003154763100116629130000000_00000000002419838708369272110000000_00000000001915426237489587290000000_00000000001557155489963762080000000_00000000001294878964031886250000000_00000000001097691050139539970000000_00000000000945910900451331986000000_00000000000826628655642957707000000_00000000000731145365915719164000000_00000000000653454774978442588000000_00000000000589316838073992823000000_00000000000535677297499407029000000_00000000000490295168595943150000000_00000000000451498284289045691000000_00000000000418019549855981471000000,
  01943181079517762240000000000000000_00046711083419625048500000000000000_00003368587523978724160000000000000_00000404878085541668275000000000000_00000068128301380563878800000000000_00000014739073342905152400000000000_00000003897128495474425700000000000_00000001217630025984302070000000000_00000000438826659364037581000000000_00000000179105573292501709000000000_00000000081580397411946267200000000_00000000040959783303613073400000000_00000000022423405186599349200000000_00000000013252975227029230000000000_00000000008379061800702438710000000_00000000005618544038456801980000000_00000000003964266946432526460000000_00000000002922102139704461840000000_00000000002235870544930009710000000_00000000001766006008217370160000000_00000000001433001781247828750000000_00000000001189704634870029280000000_00000000001007113920164507180000000_00000000000866797264106612081000000_00000000000756685365202956906000000_00000000000668659198903296343000000_00000000000597121608737989255000000_00000000000538127044291963221000000_00000000000488837192680053285000000_00000000000447172109668155691000000_00000000000411581592544553493000000_00000000000380892233765625061000000,
  01938526746916383760000000000000000_00046376237764027715100000000000000_00003328437916556408510000000000000_00000398138306286047203000000000000_00000066673678564044520100000000000_00000014355376245242373200000000000_00000003777530111779823590000000000_00000001174629459996847540000000000_00000000421317269729263963000000000_00000000171148649763827940000000000_00000000077594361728307449300000000_00000000038782334235047295600000000_00000000021139082826234648900000000_00000000012442513047521214000000000_00000000007836550885492662670000000_00000000005236362449995400480000000_00000000003682947623932486540000000_00000000002707111155987860730000000_00000000002066240794021426990000000_00000000001628490050462041170000000_00000000001318925519103830820000000_00000000001093203852004248470000000_00000000000924108621212995378000000_00000000000794374705385294607000000_00000000000692717365637066245000000_00000000000611558029826238482000000_00000000000545680245254992467000000_00000000000491412146627634528000000_00000000000446115856340679942000000_00000000000407860730668403809000000_00000000000375209517702304958000000_00000000000347075485893806818000000,
  01933905699249795330000000000000000_00046045373611124640400000000000000_00003288955077400321270000000000000_00000391542090581932820000000000000_00000065256834559835757800000000000_00000013983426868526045400000000000_00000003662145547460918760000000000_00000001133340703727715050000000000_00000000404583999892566995000000000_00000000163579653279660167000000000_00000000073819782187753125400000000_00000000036729353940831041100000000_00000000019933156671695286600000000_00000000011684437056296910900000000_00000000007330886668859635440000000_00000000004881265546881369550000000_00000000003422301702985965460000000_00000000002508414185014879840000000_00000000001909808001133544950000000_00000000001501912752714982290000000_00000000001214096117332676250000000_00000000001004651913874471900000000_00000000000848035044492628211000000_00000000000728071823196580066000000_00000000000634209887198270390000000_00000000000559374382019127199000000_00000000000498703167977704296000000_00000000000448778749402533832000000_00000000000407149304505415572000000_00000000000372022617354685259000000_00000000000342066047524155323000000_00000000000316273058834799238000000,
  01929317541677798020000000000000000_00045718424995659090600000000000000_00003250124837108835830000000000000_00000385085718591463968000000000000_00000063876615382840002000000000000_00000013622812262112803900000000000_00000003550807438361164680000000000_00000001093688050101787850000000000_00000000388589094007751761000000000_00000000156378047718769822000000000_00000000070244595314145335800000000_00000000034793258701359208600000000_00000000018800567908331003500000000_00000000010975194628165441600000000_00000000006859461387696053870000000_00000000004551265304348154310000000_00000000003180763981874391780000000_00000000002324744715691030290000000_00000000001765523238139635300000000_00000000001385388042925901790000000_00000000001117752352474329850000000_00000000000923385356676636806000000_00000000000778307723635116877000000_00000000000667366425684521540000000_00000000000580692834300451705000000_00000000000511681622773191542000000_00000000000455800435112306119000000_00000000000409868214721771892000000_00000000000371605862796303403000000_00000000000339349520845873069000000_00000000000311863443843911390000000_00000000000288215300350358870000000,
  01924761885886486800000000000000000_00045395327350905929000000000000000_00003211933392562320230000000000000_00000378765583838117729000000000000_00000062531907518665441100000000000_00000013273135839447631300000000000_00000003443355805625342930000000000_00000001055599466927359780000000000_00000000373296790766532854000000000_00000000149524466217491861000000000_00000000066857471290635418400000000_00000000032966953341838211500000000_00000000017736600270114982200000000_00000000010311484229798842800000000_00000000006419858462150121120000000_00000000004244524056437497470000000_00000000002956890809909405700000000_00000000002154936823528461520000000_00000000001632422486181427680000000_00000000001278102749512009530000000_00000000001029196505225583770000000_00000000000848796728887861203000000_00000000000714391130489962546000000_00000000000611781260911431481000000_00000000000531736883335699524000000_00000000000468090374387869267000000_00000000000416616360480606435000000_00000000000374353577737465125000000_00000000000339183286937664201000000_00000000000309560659104793389000000_00000000000284339704664603542000000_00000000000262656758847575384000000,
  01920238349950209990000000000000000_00045076017472603546200000000000000_00003174367295786659960000000000000_00000372578189240243553000000000000_00000061221636323539447300000000000_00000012934016657580530700000000000_00000003339637697992052130000000000_00000001019006403168362920000000000_00000000358673210061056960000000000_00000000143000640190458944000000000_00000000063647766776861564100000000_00000000031243798201635576100000000_00000000016736855861812228800000000_00000000009690237033354188160000000_00000000006009838051083234190000000_00000000003959342829976443370000000_00000000002749350441428461040000000_00000000001997917033866711510000000_00000000001509619654012150210000000_00000000001179310522864606900000000_00000000000947789001579867723000000_00000000000780329815501344429000000_00000000000655795378923486067000000_00000000000560880120355388945000000_00000000000486949923293098038000000_00000000000428245242181795772000000_00000000000380826488893292968000000_00000000000341936736782329186000000_00000000000309606140812460123000000_00000000000282400260607815095000000_00000000000259256254728727385000000_00000000000239374005024297336000000,
  01915746558197080630000000000000000_00044760433483979868600000000000000_00003137413443205545580000000000000_00000366520143301062448000000000000_00000059944764494513598900000000000_00000012605088731503908500000000000_00000003239506852903922610000000000_00000000983843606203174953000000000_00000000344686246513843887000000000_00000000136789332908416826000000000_00000000060605480911327424500000000_00000000029617578431840420300000000_00000000015797232749467844400000000_00000000009108599917794163180000000_00000000005627323727227487840000000_00000000003694150603609607970000000_00000000002556914169551213110000000_00000000001852696853740282860000000_00000000001396300178172990050000000_00000000001088326269562960410000000_00000000000872943510697418921000000_00000000000717475272978697421000000_00000000000602072301004160349000000_00000000000514264282478534803000000_00000000000445973808910869382000000_00000000000391821831344081159000000_00000000000348134839800051704000000_00000000000312345893791981639000000_00000000000282623408959183738000000_00000000000257635328401110910000000_00000000000236395843938308821000000_00000000000218163650119881119000000,
  01911286141077932030000000000000000_00044448514801834340800000000000000_00003101059065266224270000000000000_00000360588156448273086000000000000_00000058700290606570533700000000000_00000012286000381482701200000000000_00000003142823375370489780000000000_00000000950048949405528253000000000_00000000331305469434983058000000000_00000000130874277325954876000000000_00000000057721214274755589000000000_00000000028082475450958489600000000_00000000014913904185892859100000000_00000000008563919750434166560000000_00000000005270390183327213490000000_00000000003447494417158997080000000_00000000002378448175657595180000000_00000000001718365916698798240000000_00000000001291715155948967940000000_00000000001004521055615337140000000_00000000000804122460240600738000000_00000000000659766639330518918000000_00000000000552811863082790621000000_00000000000471569266513331655000000_00000000000408481398778471419000000_00000000000358524027011460064000000_00000000000318271395324003406000000_00000000000285333222639996831000000_00000000000258006322477849045000000_00000000000235053604711280902000000_00000000000215560634867750150000000_00000000000198840542983266102000000,
  01906856735038613910000000000000000_00044140202103639271200000000000000_00003065291716424083780000000000000_00000354779037516736683000000000000_00000057487247713420429500000000000_00000011976413611652538000000000000_00000003049453433582955870000000000_00000000917563269425560236000000000_00000000318502028796045819000000000_00000000125240117873577657000000000_00000000054986130606568317700000000_00000000026633040401474780500000000_00000000014083299348141106400000000_00000000008053728849752395950000000_00000000004937251887710429070000000_00000000003218030262717090010000000_00000000002212906035879760080000000_00000000001594085689578887220000000_00000000001195175966227705980000000_00000000000927317438800948296000000_00000000000740832933310482149000000_00000000000606776686840407718000000_00000000000507638892127624471000000_00000000000432461869248123762000000_00000000000374173853250871808000000_00000000000328081514237698238000000_00000000000290989810923575357000000_00000000000260672745016790260000000_00000000000235546379206002537000000_00000000000214461718067546063000000_00000000000196570462309283866000000_00000000000181236129783383359000000,
  01902457982395528900000000000000000_00043835437295625364600000000000000_00003030099265472074200000000000000_00000349089690368025286000000000000_00000056304702008942474400000000000_00000011676003518258264000000000000_00000002959268970340260200000000000_00000000886330212588704407000000000_00000000306248566837717851000000000_00000000119872355948562030000000000_00000000052391921081775742500000000_00000000025264169461835927100000000_00000000013302085473470391000000000_00000000007575731538321392190000000_00000000004626252614310281910000000_00000000003004514694502000480000000_00000000002059321830782273290000000_00000000001479083694520821750000000_00000000001106049337203166060000000_00000000000856185193615340782000000_00000000000682622914225505442000000_00000000000558114087779593751000000_00000000000466210085274451082000000_00000000000396637459993984893000000_00000000000342778169265113724000000_00000000000300247516598599497000000_00000000000266065328869060369000000_00000000000238158395309881226000000_00000000000215053540747283713000000_00000000000195683496520364454000000_00000000000179261249333874388000000_00000000000165196961653340630000000,
  01898089531214312680000000000000000_00043534163481817629700000000000000_00002995469886201579510000000000000_00000343517110640914567000000000000_00000055151751546384851900000000000_00000011384457725996358600000000000_00000002872147429402236590000000000_00000000856296089867124902000000000_00000000294519134953771643000000000_00000000114757298857607524000000000_00000000049930770969543877500000000_00000000023971080879311732400000000_00000000012567151289030732900000000_00000000007127791701911431830000000_00000000004335855778192173530000000_00000000002805797099659246300000000_00000000001916803808876301420000000_00000000001372648203451560860000000_00000000001023752823357218730000000_00000000000790637395453834846000000_00000000000629077853217194162000000_00000000000513420366043006127000000_00000000000428211277922462613000000_00000000000363817511102773487000000_00000000000314044931178909641000000_00000000000274796734067355020000000_00000000000243292876490945241000000_00000000000217602257605279913000000_00000000000196354590501387654000000_00000000000178558432021770705000000_00000000000163483565753545368000000_00000000000150583336893036099000000,
  01893751035191564380000000000000000_00043236324933989163700000000000000_00002961392048381928720000000000000_00000338058382627183344000000000000_00000054027525012586079200000000000_00000011101475851010538200000000000_00000002787971495938419670000000000_00000000827409739912929614000000000_00000000283289115517826610000000000_00000000109882011981504879000000000_00000000047595328507658767700000000_00000000022749293599262453100000000_00000000011875591638582140300000000_00000000006707921277429562390000000_00000000004064635513184007050000000_00000000002620812576922318010000000_00000000001784528558708976780000000_00000000001274123365850629180000000_00000000000947750657343227074000000_00000000000730226833528783704000000_00000000000579817522705111619000000_00000000000472367109994769426000000_00000000000393354947868411183000000_00000000000333747343400452688000000_00000000000287746258600059379000000_00000000000251523462517448266000000_00000000000222485332768291919000000_00000000000198832959442483931000000_00000000000179291638269359377000000_00000000000162940282379333538000000_00000000000149101316147077699000000_00000000000137268065566964934000000,
  01889442153539537030000000000000000_00042941867062501566600000000000000_00002927854509046286520000000000000_00000332710676267348631000000000000_00000052931180554621535100000000000_00000010826768989170476100000000000_00000002706628850290508360000000000_00000000799622399674630449000000000_00000000272535148341513359000000000_00000000105234273948019504000000000_00000000045378675839079583100000000_00000000021594607375631870900000000_00000000011224693216969638800000000_00000000006314269598440273740000000_00000000003811268433295874230000000_00000000002448575374379805180000000_00000000001661735648020568990000000_00000000001182904733904769360000000_00000000000877549945313590976000000_00000000000674542724630316847000000_00000000000534493140175305278000000_00000000000434653423961786173000000_00000000000361377934942906378000000_00000000000306194067717315050000000_00000000000263673933860110967000000_00000000000230239878779011649000000_00000000000203471948292287938000000_00000000000181694208332325817000000_00000000000163720758304749889000000_00000000000148695798420495883000000_00000000000135990545771371188000000_00000000000125135345436016311000000,
  01885162550873700820000000000000000_00042650736388001939200000000000000_00002894846304072188030000000000000_00000327471244261217948000000000000_00000051861904656412189800000000000_00000010560059228339431300000000000_00000002628011934312825770000000000_00000000772887582148413796000000000_00000000262235061473288727000000000_00000000100802534614005954000000000_00000000043274301867856740000000000_00000000020503084256066659000000000_00000000010611921329925066700000000_00000000005945113532608177760000000_00000000003574526024289040480000000_00000000002288172841573234470000000_00000000001547722691898756980000000_00000000001098435152167732360000000_00000000000812697176901027652000000_00000000000623207702228344183000000_00000000000492784734842991243000000_00000000000400003597776412460000000_00000000000332039357410419131000000_00000000000280944705353476259000000_00000000000241637693320546922000000_00000000000210774476603203370000000_00000000000186096904975524020000000_00000000000166043458299944861000000_00000000000149510748860899482000000_00000000000135703565118236658000000_00000000000124038353735989877000000_00000000000114079739164031048000000,
  01880911897103095180000000000000000_00042362880513947564500000000000000_00002862356740045481560000000000000_00000322337419288380528000000000000_00000050818911062958363300000000000_00000010301079183407948400000000000_00000002552017729598537630000000000_00000000747160960843888009000000000_00000000252367806066350418000000000_00000000096575875671522421800000000_00000000041276076901949649500000000_00000000019471031342986060000000000_00000000010034907603070220800000000_00000000005598848350549413130000000_00000000003353267616046679680000000_00000000002138759854797120140000000_00000000001441840815007863680000000_00000000001020200981596800110000000_00000000000752775023502847461000000_00000000000575875057595580617000000_00000000000454398737249235753000000_00000000000368164975559844352000000_00000000000305118708034047984000000_00000000000257804471828166275000000_00000000000221463668098248610000000_00000000000192970640190373992000000_00000000000170218003093412094000000_00000000000151750694855614061000000_00000000000136542002358044972000000_00000000000123852946442499701000000_00000000000113141903778060940000000_00000000000104005243650904069000000,
  01876689867323388000000000000000000_00042078248099930475600000000000000_00002830375386396920130000000000000_00000317306611333986803000000000000_00000049801439749980233500000000000_00000010049571552937957300000000000_00000002478547546940096910000000000_00000000722400260570225388000000000_00000000242913395061976978000000000_00000000092543973705479844200000000_00000000039378228959975548400000000_00000000018494984739243922300000000_00000000009491438569807233880000000_00000000005273979270313301910000000_00000000003146433890341963450000000_00000000001999553677818595470000000_00000000001343490475855804440000000_00000000000947728630359505933000000_00000000000697399400748321208000000_00000000000532226211625118899000000_00000000000419065772739283750000000_00000000000338906006571817308000000_00000000000280414114201357902000000_00000000000236595209637971385000000_00000000000202992961071234828000000_00000000000176685343122935532000000_00000000000155705464351168842000000_00000000000138697327834178628000000_00000000000124705476270678088000000_00000000000113043124623790790000000_00000000000103207523847445624000000_00000000000094824443172345319100000,
  01872496141712563680000000000000000_00041796788835775162900000000000000_00002798892067801096170000000000000_00000312376305115381706000000000000_00000048808755936859185600000000000_00000009805288696324826860000000000_00000002407506826410550640000000000_00000000698565154173141327000000000_00000000233852845451265470000000000_00000000088697065542211744300000000_00000000037575321627714203100000000_00000000017571694593785076300000000_00000000008979445073139060520000000_00000000004969113626072537240000000_00000000002953040882221688860000000_00000000001869829223303619020000000_00000000001252117623705030020000000_00000000000880581366112480941000000_00000000000646216773069419381000000_00000000000491968397837983760000000_00000000000386538641411931295000000_00000000000312014462443355769000000_00000000000257740747871371728000000_00000000000217153957004126856000000_00000000000186080348186766017000000_00000000000161787961623318978000000_00000000000142440840677732661000000_00000000000126775182488682732000000_00000000000113901755724346108000000_00000000000103182225354037578000000_00000000000094149886505834207000000_00000000000086457738759576830100000,
  01868330405429163690000000000000000_00041518453416383683700000000000000_00002767896856827847300000000000000_00000307544057605362531000000000000_00000047840149140880335500000000000_00000009567992230444453440000000000_00000002338804947488141620000000000_00000000675617164876071686000000000_00000000225168123893743559000000000_00000000085025915739356119400000000_00000000035862233358336692000000000_00000000016698111168943453400000000_00000000008496992421401873260000000_00000000004682953613609593360000000_00000000002772174436552086450000000_00000000001748914683053230590000000_00000000001167210161156333730000000_00000000000818356386567641842000000_00000000000598901680161162980000000_00000000000454832538741064442000000_00000000000356590468628586286000000_00000000000287295806470153497000000_00000000000236929372346699334000000_00000000000199331640733029770000000_00000000000170593093151939308000000_00000000000148159192040664349000000_00000000000130316019365750032000000_00000000000115885580083769363000000_00000000000104040199599826325000000_00000000000094186521212777114500000_00000000000085891262865304875500000_00000000000078832646937077045400000,
  01864192348513006380000000000000000_00041243193517303403400000000000000_00002737380066836673950000000000000_00000302807495648027032000000000000_00000046894932270877020900000000000_00000009337452644808524530000000000_00000002272355048680218810000000000_00000000653519573900331086000000000_00000000216842095485776257000000000_00000000081521786077661878100000000_00000000034234138117869385100000000_00000000015871371856800389600000000_00000000008042271242445342510000000_00000000004414289568877302760000000_00000000002602985084332028670000000_00000000001636187497737817550000000_00000000001088294687654709420000000_00000000000760682127095706473000000_00000000000555154466824563014000000_00000000000420571299217463567000000_00000000000329013011539858425000000_00000000000264571701886166309000000_00000000000217825014009417544000000_00000000000182991882357175026000000_00000000000156409865551056370000000_00000000000135690063365537253000000_00000000000119232316012454018000000_00000000000105938500017269573000000_00000000000095038162678547526800000_00000000000085979706300834750800000_00000000000078360843448446283300000_00000000000071883161559197898100000,
  01860081665788314860000000000000000_00040970961770993524200000000000000_00002707332245105103790000000000000_00000298164313663362525000000000000_00000045972440758473069700000000000_00000009113448934303905580000000000_00000002208073856133979020000000000_00000000632237333059061972000000000_00000000208858475485145723000000000_00000000078176406924827390500000000_00000000032686487284392217200000000_00000000015088789077355127800000000_00000000007613588984996788130000000_00000000004161993739308500980000000_00000000002444683306189774620000000_00000000001531070639189200550000000_00000000001014933501201573970000000_00000000000707215785888506220000000_00000000000514699199246342708000000_00000000000388957302022046728000000_00000000000303615108338019023000000_00000000000243678647170595180000000_00000000000200285748194313524000000_00000000000168009907674677309000000_00000000000143419753312688872000000_00000000000124281036387841321000000_00000000000109099647477227943000000_00000000000096851816210998286400000_00000000000086820287032844647500000_00000000000078492235695118637800000_00000000000071494119949300459800000_00000000000065549173052721790500000,
  01855998056769184190000000000000000_00040701711743767442600000000000000_00002677744166182314010000000000000_00000293612271436902664000000000000_00000045072031725208553500000000000_00000008895768248641850320000000000_00000002145881520751134800000000000_00000000611736982038511963000000000_00000000201201783810725277000000000_00000000074981950350300940000000000_00000000031214992715945417200000000_00000000014347838996189625600000000_00000000007209362019819178780000000_00000000003925014510677031440000000_00000000002296535153063004680000000_00000000001433029180487287280000000_00000000000946721837423225220000000_00000000000657641048823675364000000_00000000000477281752197846537000000_00000000000359781491726172943000000_00000000000280221258085831340000000_00000000000224466727476145818000000_00000000000184181589317268301000000_00000000000154271550672592936000000_00000000000131521361250110358000000_00000000000113841181856328331000000_00000000000099835777764603271800000_00000000000088550601160463547100000_00000000000079317856474093408500000_00000000000071660723912642294400000_00000000000065232322417523239200000_00000000000059775939887326358100000,
  01851941225567321570000000000000000_00040435397913388831400000000000000_00002648606825459681240000000000000_00000289149191990945695000000000000_00000044193083183919792300000000000_00000008684205557689623490000000000_00000002085701463351364270000000000_00000000591986570097693461000000000_00000000193857302147860850000000000_00000000071931004878171604200000000_00000000029815610908119770800000000_00000000013646151003867690200000000_00000000006828108296846766330000000_00000000003702371055192012700000000_00000000002157858196436885720000000_00000000001341567131076303700000000_00000000000883285326855686417000000_00000000000611665997660757098000000_00000000000442668052942172964000000_00000000000332851634617585654000000_00000000000258670320015521044000000_00000000000206798472210947296000000_00000000000169393476237898625000000_00000000000141672343609835403000000_00000000000120621988128543390000000_00000000000104287430675188852000000_00000000000091365630372481544900000_00000000000080966491623723694300000_00000000000072468208426415425800000_00000000000065427397094556825100000_00000000000059521906882180698600000_00000000000054513607564149474600000,
  01847910880801995040000000000000000_00040171975647300153700000000000000_00002619911432950271700000000000000_00000284772959533986855000000000000_00000043334993272824887200000000000_00000008478563331901322060000000000_00000002027460227455464620000000000_00000000572955581933866736000000000_00000000186811033500974584000000000_00000000069016551772899950800000000_00000000028484528167868019000000000_00000000012981497903523004600000000_00000000006468440517779541660000000_00000000003493148369159094620000000_00000000002028017782698377510000000_00000000001256224515980059980000000_00000000000824277652874166744000000_00000000000569021186558202468000000_00000000000410642468834062986000000_00000000000307990943123698727000000_00000000000238814322144653507000000_00000000000190547809668708799000000_00000000000155812344621397594000000_00000000000130116685756363102000000_00000000000110636875377801669000000_00000000000095543889790045494600000_00000000000083620661220046330300000_00000000000074037110467223184200000_00000000000066214198098414915200000_00000000000059739594096510024800000_00000000000054314088880954400700000_00000000000049716770838435421900000,
  01843906735512128580000000000000000_00039911401181463102000000000000000_00002591649407269611230000000000000_00000280481517485168596000000000000_00000042497179520842276200000000000_00000008278651237106352190000000000_00000001971087339283611680000000000_00000000554614867476622020000000000_00000000180049664045071771000000000_00000000066231942759723065100000000_00000000027218146735232115600000000_00000000012351786756988310300000000_00000000006129059786660533380000000_00000000003296492670984823380000000_00000000001906423568172635000000000_00000000001176574679869955000000000_00000000000769378394133205858000000_00000000000529457873146781366000000_00000000000381006326690970857000000_00000000000285036814297649946000000_00000000000220517369926273889000000_00000000000175599110388803793000000_00000000000143338278781473352000000_00000000000119517083942679797000000_00000000000101488521175139746000000_00000000000087541217977648340200000_00000000000076538286793194180400000_00000000000067705539675861414300000_00000000000060503710284802674600000_00000000000054549312104312948900000_00000000000049564418769263414800000_00000000000045344075279449655500000,
  01839928507070483460000000000000000_00039653631599791202800000000000000_00002563812369810387170000000000000_00000276272866570695947000000000000_00000041679078142741977300000000000_00000008084285842953317020000000000_00000001916515174587125030000000000_00000000536936575387688351000000000_00000000173560527137315504000000000_00000000063570879088156846400000000_00000000026013071789463236900000000_00000000011755050343423320800000000_00000000005808749703768329520000000_00000000003111607132550050620000000_00000000001792526313253566330000000_00000000001102221798285938240000000_00000000000718291036702116298000000_00000000000492746391536291997000000_00000000000353576553014748507000000_00000000000263839672794392362000000_00000000000203654646446021830000000_00000000000161846311646573402000000_00000000000131879736140447567000000_00000000000109793458673151969000000_00000000000093106054175695115500000_00000000000080216056265585592300000_00000000000070061362621960690300000_00000000000061919839980129901100000_00000000000055289214547871883200000_00000000000049812792787560520800000_00000000000045232395055607361100000_00000000000041357854622977582900000,
  01835975917099867410000000000000000_00039398624814155550900000000000000_00002536392139104032440000000000000_00000272145062989300885000000000000_00000040880143362797537200000000000_00000007895290344344138930000000000_00000001863678831953746080000000000_00000000519894090057033012000000000_00000000167331569358680997000000000_00000000061027391853146270500000000_00000000024866099280446746900000000_00000000011189439187734355100000000_00000000005506370870749558630000000_00000000002937747919051034980000000_00000000001685814915738566710000000_00000000001032798579730851910000000_00000000000670741142289606728000000_00000000000458674655678031896000000_00000000000328184425059450230000000_00000000000244261909575942550000000_00000000000188111496405601369000000_00000000000149192116130234345000000_00000000000121352838039470840000000_00000000000100872510103335883000000_00000000000085424661671589073900000_00000000000073510508174831093500000_00000000000064137707638533264100000_00000000000056632612958831058700000_00000000000050527359909334175200000_00000000000045490145362045328900000_00000000000041281112347638170400000_00000000000037723800691956925500000,
  01832048691391315450000000000000000_00039146339544945322300000000000000_00002509380725362427440000000000000_00000268096216643969540000000000000_00000040099846765671454500000000000_00000007711494295228213180000000000_00000001812516012246744260000000000_00000000503461971898396623000000000_00000000161351318463958032000000000_00000000058595823494114809400000000_00000000023774204530458716200000000_00000000010653214119164948300000000_00000000005220855777309409200000000_00000000002774220514316704490000000_00000000001585813665039264130000000_00000000000967964143662931617000000_00000000000626474660060628634000000_00000000000427046782463403523000000_00000000000304674423579180839000000_00000000000226176908327269893000000_00000000000173782586795941577000000_00000000000137547258459832150000000_00000000000111680721176481248000000_00000000000092687138680089660800000_00000000000078385067419887906400000_00000000000067371665403013832900000_00000000000058719670359834304200000_00000000000051800601845251241100000_00000000000046178605529387996300000_00000000000041545003257727686900000_00000000000037676940801121228400000_00000000000034410662952028523400000,
  01828146559824187530000000000000000_00038896735302165384400000000000000_00002482770325193227470000000000000_00000264124489437269682000000000000_00000039337676673328201800000000000_00000007532733354159394150000000000_00000001762966903857256270000000000_00000000487615900759192357000000000_00000000155608853126076480000000000_00000000056270810397468284800000000_00000000022734531555098013500000000_00000000010144739323292925600000000_00000000004951204041988223640000000_00000000002620376310370527930000000_00000000001492079700376882460000000_00000000000907402060609336450000000_00000000000585256370565928758000000_00000000000397681824816699376000000_00000000000282903178857312763000000_00000000000209468152243187104000000_00000000000160571137770074867000000_00000000000126829833750687047000000_00000000000102792944446569462000000_00000000000085175915697975477900000_00000000000071933054798171683700000_00000000000061751174953609237900000_00000000000053763733198793464000000_00000000000047384327600963303600000_00000000000042206884165153263300000_00000000000037944211385594844300000_00000000000034389234243815265800000_00000000000031389975033658572200000,
  01824269256288130420000000000000000_00038649772367053951700000000000000_00002456553316482583900000000000000_00000260228093627733570000000000000_00000038593137546827118300000000000_00000007358849041049768150000000000_00000001714974073467212760000000000_00000000472332622270736408000000000_00000000150093774367924549000000000_00000000054047266533044701200000000_00000000021744383055780548600000000_00000000009662475853313222310000000_00000000004696477981593150110000000_00000000002475609441627570440000000_00000000001404200657392732500000000_00000000000850818541724190984000000_00000000000546868451238188401000000_00000000000370412605844338755000000_00000000000262738502320856535000000_00000000000194028404467463216000000_00000000000148388217780161811000000_00000000000116964682923288268000000_00000000000094624946413007787000000_00000000000078282599440210221000000_00000000000066019031328018059400000_00000000000056604844069183409600000_00000000000049230151536460294600000_00000000000043347757127647619300000_00000000000038579295487567607700000_00000000000034657541266608594400000_00000000000031390064400899980700000_00000000000028635805793378619500000,
  01820416518606852370000000000000000_00038405411774203850400000000000000_00002430722253439276160000000000000_00000256405290244863277000000000000_00000037865749411902563300000000000_00000007189688504583578740000000000_00000001668482362037087090000000000_00000000457589896975120132000000000_00000000144796178581547764000000000_00000000051920368059596498600000000_00000000020801211039470369600000000_00000000009204975568933329210000000_00000000004455798485739000330000000_00000000002339353845612596040000000_00000000001321792488820720190000000_00000000000797940766125800199000000_00000000000511109153765017934000000_00000000000345084645839823539000000_00000000000244058496686832654000000_00000000000179758956033224728000000_00000000000137152097549742792000000_00000000000107882829917753130000000_00000000000087117549051169378100000_00000000000071955692950731348900000_00000000000060597630954565766200000_00000000000051892279648433891700000_00000000000045082624485910810100000_00000000000039658000766145925300000_00000000000035265826597047886300000_00000000000031657431531514207600000_00000000000028653978880197936100000_00000000000026124532705783080700000,
  01816588088463661260000000000000000_00038163615294171539700000000000000_00002405269861794509340000000000000_00000252654387560432190000000000000_00000037155047307290984200000000000_00000007025104299782444890000000000_00000001623438785748580100000000000_00000000443366452074728162000000000_00000000139706632040891631000000000_00000000049885538838669682700000000_00000000019902608024374856100000000_00000000008770875473474604090000000_00000000004228341174694014110000000_00000000002211080533463645590000000_00000000001244497445988185050000000_00000000000748515335276818148000000_00000000000477791584434885295000000_00000000000321555174619125885000000_00000000000226750738176230744000000_00000000000166568935673103255000000_00000000000126787657915340428000000_00000000000099520966387565860700000_00000000000080216503785388853600000_00000000000066148039829026803200000_00000000000055627350787467167500000_00000000000047576559119854382900000_00000000000041287994551087204800000_00000000000036285036485857127700000_00000000000032239097315994106000000_00000000000028918751523757173500000_00000000000026157780786152324800000_00000000000023834635577194731800000,
  01812783711328718010000000000000000_00037924345416558600800000000000000_00002380189034151860070000000000000_00000248973739613857936000000000000_00000036460580754814111600000000000_00000006864954175239246620000000000_00000001579792441647294910000000000_00000000429641935659494097000000000_00000000134816146820112876000000000_00000000047938436800228093800000000_00000000019046298793165643900000000_00000000008358892421871600850000000_00000000004013332820335372750000000_00000000002090295054756659340000000_00000000001171982208941711300000000_00000000000702306844524971243000000_00000000000446742579273182140000000_00000000000299692222280313984000000_00000000000210711524870188017000000_00000000000154374676342697791000000_00000000000117225846994753382000000_00000000000091820979827800971900000_00000000000073872076183670284200000_00000000000060816454754166539300000_00000000000051070219297695086600000_00000000000043623930011946800000000_00000000000037815973631658673500000_00000000000033201458398784675400000_00000000000029474128052660145200000_00000000000026418585941121884300000_00000000000023880328023225710600000_00000000000021746508753154103400000,
  01809003136387958830000000000000000_00037687565333550945300000000000000_00002355472825482070450000000000000_00000245361744789518705000000000000_00000035781913250274510500000000000_00000006709100869562836800000000000_00000001537494417744516190000000000_00000000416396873275505886000000000_00000000130116158034961674000000000_00000000046074941107081678300000000_00000000018230132657919249500000000_00000000007967818174205756880000000_00000000003810048011506343720000000_00000000001976535142358972570000000_00000000001103936153943007280000000_00000000000659096562706652112000000_00000000000417801666447464702000000_00000000000279373782048717196000000_00000000000195845185776608168000000_00000000000143099133735554009000000_00000000000108403182526222846000000_00000000000084729521440567227000000_00000000000068038665989926687200000_00000000000055921385731641482300000_00000000000046891493228317497700000_00000000000040003535703325992000000_00000000000034638893050869079500000_00000000000030382247443086488300000_00000000000026948128227955147500000_00000000000024136038636781950700000_00000000000021802350523796360700000_00000000000019842290156743088100000,
  01805246116473641360000000000000000_00037453238923901515700000000000000_00002331114448757598500000000000000_00000241816844443977036000000000000_00000035118621774264312700000000000_00000006557411916599158420000000000_00000001496497707350443240000000000_00000000403612626706563978000000000_00000000125598502329856458000000000_00000000044291140068634469000000000_00000000017452076203416525400000000_00000000007596514771210967800000000_00000000003617806046441366670000000_00000000001869368524100742340000000_00000000001040069747953146420000000_00000000000618681211436988806000000_00000000000390820109028387287000000_00000000000260487039389178313000000_00000000000182063445627445128000000_00000000000132671352465499668000000_00000000000100261295576267661000000_00000000000078197610357854529800000_00000000000062674459460775083200000_00000000000051426605318599439300000_00000000000043059380717754935200000_00000000000036687165057917138000000_00000000000031731475489115939200000_00000000000027804562272712842400000_00000000000024640303436116609200000_00000000000022052053868885082000000_00000000000019906283794311910100000_00000000000018105705644702090200000,
  01801512407996470790000000000000000_00037221330737342746300000000000000_00002307107270722032310000000000000_00000238337521581162949000000000000_00000034470296322030285200000000000_00000006409759459016481930000000000_00000001456757127423687200000000000_00000000391271354847791173000000000_00000000121255397538058404000000000_00000000042583319757689091700000000_00000000016710206477711816300000000_00000000007243910209857589030000000_00000000003435968036195944520000000_00000000001768390889050780580000000_00000000000980113060527484353000000_00000000000580871836373062258000000_00000000000365660021750497873000000_00000000000242927662043917290000000_00000000000169284840840832070000000_00000000000123025975955990778000000_00000000000092746512137248086300000_00000000000072180271131949144300000_00000000000057741111236218600200000_00000000000047298928322086860600000_00000000000039544788353248956500000_00000000000033649023852652188300000_00000000000029070626893479930700000_00000000000025447548564330648200000_00000000000022531679673499022600000_00000000000020149253441087011100000_00000000000018176117317836791300000_00000000000016521927304694448600000,
  01797801770879263970000000000000000_00036991805979415537500000000000000_00002283444807789665990000000000000_00000234922299573651941000000000000_00000033836539451578559600000000000_00000006266020069863404190000000000_00000001418229240733577230000000000_00000000379355976557426159000000000_00000000117079423446827154000000000_00000000040947953287046685700000000_00000000016002704600993710600000000_00000000006908994398668214610000000_00000000003263934204192926810000000_00000000001673223997103507770000000_00000000000923814384283992114000000_00000000000545492763346565399000000_00000000000342193555929029516000000_00000000000226599146091878212000000_00000000000157434182461379517000000_00000000000114102796409019531000000_00000000000085809469431256560100000_00000000000066636201668494363400000_00000000000053203453213015735000000_00000000000043507953682983851200000_00000000000036321090072171771700000_00000000000030865526089377035100000_00000000000026635246604229133500000_00000000000023292165111758254500000_00000000000020604943118395290000000_00000000000018411788315963757800000_00000000000016597256482493185200000_00000000000015077444441139740600000,
  01794113968492110140000000000000000_00036764630496701953000000000000000_00002260120722070717680000000000000_00000231569740928253120000000000000_00000033216965849240485500000000000_00000006126074581728037250000000000_00000001380872281642874150000000000_00000000367850135379533049000000000_00000000113063503603623864000000000_00000000039381690705439641200000000_00000000015327849765721352300000000_00000000006590815373852401820000000_00000000003101141368083074840000000_00000000001583513921432903310000000_00000000000870938955789696712000000_00000000000512380632822746208000000_00000000000320302147158892269000000_00000000000211412213526480639000000_00000000000146442062239254768000000_00000000000105846341530763047000000_00000000000079404764007142810400000_00000000000061527469019296424700000_00000000000049029228108167142700000_00000000000040025828457301879500000_00000000000033363916011106529500000_00000000000028315103450676849300000_00000000000024406054094945279000000_00000000000021321025222969469000000_00000000000018844294080166620800000_00000000000016825203410211223000000_00000000000015156396824821157000000_00000000000013759946109895509700000,
  01790448767588988910000000000000000_00036539770762449294400000000000000_00002237128817517844870000000000000_00000228278446094198771000000000000_00000032611201911957282300000000000_00000005989807923145530130000000000_00000001344646085328903400000000000_00000000356738166036554688000000000_00000000109200888103341954000000000_00000000037881349474943850400000000_00000000014684013602844257200000000_00000000006288475758676833580000000_00000000002947060591122502390000000_00000000001498929414153020500000000_00000000000821267769338102004000000_00000000000481383506657967405000000_00000000000299875820853723148000000_00000000000197284257216496094000000_00000000000136244398326792000000000_00000000000098205494969933647000000_00000000000073490628964548100900000_00000000000056819230673100343800000_00000000000045188845599566520300000_00000000000036827031988080369900000_00000000000030650959568882083600000_00000000000025978031312462587900000_00000000000022365430864715034600000_00000000000019518252066639623300000_00000000000017235313859196408000000_00000000000015376314396115101400000_00000000000013841409485841544700000_00000000000012558214164730182400000,
  01786805938245806610000000000000000_00036317193862573634700000000000000_00002214463036189779020000000000000_00000225047052312299157000000000000_00000032018885345575559400000000000_00000005857108961918769570000000000_00000001309512020270932790000000000_00000000346005062596454353000000000_00000000105485137300208195000000000_00000000036443905494450553500000000_00000000014069654890609520900000000_00000000006001129449720078240000000_00000000002801194991198977860000000_00000000001419160386248015400000000_00000000000774596476669193637000000_00000000000452360041602327777000000_00000000000280812551079269761000000_00000000000184138829452110025000000_00000000000126782017362840692000000_00000000000091133147679939364800000_00000000000068028637864746877500000_00000000000052479479184604331900000_00000000000041655159113127996300000_00000000000033888178526802255800000_00000000000028161801101374332700000_00000000000023836269865757184000000_00000000000020497276150031047400000_00000000000017869346735356842700000_00000000000015764843371393038600000_00000000000014053095438969803800000_00000000000012641236876567674300000_00000000000011462025871921530000000,
  01783185253799813880000000000000000_00036096867482031300500000000000000_00002192117454628062110000000000000_00000221874232503495488000000000000_00000031439664778478440500000000000_00000005727870355033856520000000000_00000001275432923840869820000000000_00000000335636448224652941000000000_00000000101910106391423921000000000_00000000035066484636047656400000000_00000000013483314584037511000000000_00000000005727978514804358360000000_00000000002663077696498943610000000_00000000001343916493502452680000000_00000000000730734366216878426000000_00000000000425178724429899724000000_00000000000263017668499483065000000_00000000000171905170587662210000000_00000000000118000269982100189000000_00000000000084585877649499574400000_00000000000062983433094697477700000_00000000000048478808166602602800000_00000000000038403261492135301900000_00000000000031187836714446570400000_00000000000025877746804181392700000_00000000000021873319027377737600000_00000000000018786875241778069000000_00000000000016361067902060924100000_00000000000014420872493136089400000_00000000000012844576895877107100000_00000000000011545797639763589300000_00000000000010462065234274310600000,
  01779586490790368190000000000000000_00035878759891547186600000000000000_00002170086280343020770000000000000_00000218758694195309969000000000000_00000030873199389908071800000000000_00000005601988404867807020000000000_00000001242373040843073770000000000_00000000325618546436099608000000000_00000000098469930822824107100000000_00000000033746354763278052700000000_00000000012923611144614205500000000_00000000005468270288457256240000000_00000000002532269937602792080000000_00000000001272925820779262000000000_00000000000689503415960114262000000_00000000000399717163980340866000000_00000000000246403313588148391000000_00000000000160517774576421175000000_00000000000109848677031377711000000_00000000000078523655660132433000000_00000000000058322476639652384000000_00000000000044790197838857683600000_00000000000035410297936541809600000_00000000000028706364470281749800000_00000000000023781681465420072600000_00000000000020074085935225341100000_00000000000017220779299961406400000_00000000000014981322045958627000000_00000000000013192439175591085500000_00000000000011740752088513815200000_00000000000010545900076691702800000_00000000000009549842243140871600000,
  01776009428901006030000000000000000_00035662839934689167000000000000000_00002148363848405260730000000000000_00000215699178484754758000000000000_00000030319158552364790900000000000_00000005479362921400931810000000000_00000001210297964857299910000000000_00000000315938153767634229000000000_00000000095159012469835325000000000_00000000032480918202218599800000000_00000000012389236151113235800000000_00000000005221294651740234910000000_00000000002408359266532352400000000_00000000001205933657562139690000000_00000000000650737414406897956000000_00000000000375861435764774845000000_00000000000230887931566139894000000_00000000000149915988453179981000000_00000000000102280603998936665000000_00000000000072909574924626569200000_00000000000054015821392493629500000_00000000000041388818481485649900000_00000000000032655294738747580300000_00000000000026425757962437503300000_00000000000021857933885949984200000_00000000000018424763929664573800000_00000000000015786695656599193200000_00000000000013719063314969955600000_00000000000012069537462030002300000_00000000000010732492341796319000000_00000000000009633163282163240400000_00000000000008717619347343458190000,
  01772453850902790950000000000000000_00035449077015278230200000000000000_00002126944618139105040000000000000_00000212694459036321731000000000000_00000029777221487496269400000000000_00000005359897090160555490000000000_00000001179174582246549220000000000_00000000306582613795329803000000000_00000000091972006549825948200000000_00000000031267704638167829600000000_00000000011878950173730782400000000_00000000004986381484193935820000000_00000000002290957893956217670000000_00000000001142701358205116030000000_00000000000614281144657769853000000_00000000000353505475128513711000000_00000000000216395805806685697000000_00000000000140043643059419756000000_00000000000095252961368601024800000_00000000000067709602639771954200000_00000000000050035901286029320200000_00000000000038251850281551238400000_00000000000030119002469141260900000_00000000000024329513449234330700000_00000000000020092153869287466800000_00000000000016912722018908913300000_00000000000014473387686294287500000_00000000000012564202174479140600000_00000000000011043033618934250500000_00000000000009811469552592241480000_00000000000008799945299066040820000_00000000000007958344491867765690000,
  01768919542598904050000000000000000_00035237441085124317400000000000000_00002105823169914534650000000000000_00000209743341113732282000000000000_00000029247076934916599400000000000_00000005243497345636189420000000000_00000001148971018698912300000000000_00000000297539792425760436000000000_00000000088903809224576106000000000_00000000030104364412452346200000000_00000000011391578894898576800000000_00000000004762898276497691000000000_00000000002179701136389658750000000_00000000001083005280817837550000000_00000000000579989626880390235000000_00000000000332550515275802648000000_00000000000202856626710435422000000_00000000000130848712525066634000000_00000000000088725928798631639500000_00000000000062892351650664278200000_00000000000046357338679081333700000_00000000000035358318190364756700000_00000000000027783752380471327500000_00000000000022402500885163064600000_00000000000018471199779215939100000_00000000000015526403914254125900000_00000000000013270583405197938700000_00000000000011507522067519260100000_00000000000010104589661903095800000_00000000000008970085618375549060000_00000000000008039277665301464110000_00000000000007265590137397717430000,
  01765406292770445120000000000000000_00035027902632078179600000000000000_00002084994202034318880000000000000_00000206844660644181091000000000000_00000028728422833420639800000000000_00000005130073249919015190000000000_00000001119656588179400290000000000_00000000288798054394143077000000000_00000000085949545854062569100000000_00000000028988662195469662800000000_00000000010926009461240693000000000_00000000004550247893227418360000000_00000000002074245965810276890000000_00000000001026635799163973310000000_00000000000547727414881639128000000_00000000000312904566749501338000000_00000000000190205093290513376000000_00000000000122283000222108613000000_00000000000082662701198038376200000_00000000000058428870574102234400000_00000000000042956767559470631600000_00000000000032688940526698980000000_00000000000025633324905860889600000_00000000000020630848281172077900000_00000000000016983035750444848300000_00000000000014255235801173219500000_00000000000012168892033078708100000_00000000000010540603380168734600000_00000000000009246593621361370930000_00000000000008201408115574024550000_00000000000007344805782265875850000_00000000000006633497724713315890000,
  01761913893123413170000000000000000_00034820432668389896300000000000000_00002064452527713147640000000000000_00000203997283313860070000000000000_00000028220966014083040700000000000_00000005019537376330607450000000000_00000001091201744174269810000000000_00000000280346240906064778000000000_00000000083104559865066046900000000_00000000027918471013586820100000000_00000000010481187052164424500000000_00000000004347866475826545690000000_00000000001974269654651795430000000_00000000000973396382364924574000000_00000000000517367942790973542000000_00000000000294481935223488744000000_00000000000178380544926846815000000_00000000000114301849090044321000000_00000000000077029254931261837300000_00000000000054292450866145963000000_00000000000039812671248023523700000_00000000000030225990168760122900000_00000000000023652829221877134900000_00000000000019001835896339304700000_00000000000015616637717356621800000_00000000000013089542085390755200000_00000000000011159727820656645500000_00000000000009655754068480236230000_00000000000008462095951318394020000_00000000000007499111671846762910000_00000000000006710734585163177000000_00000000000006056727096151216240000,
  01758442138236836100000000000000000_00034615002719365008500000000000000_00002044193072145695940000000000000_00000201200103693598583000000000000_00000027724421904754298600000000000_00000004911805197817263350000000000_00000001063578033116499760000000000_00000000272173648363047005000000000_00000000080364402200275512700000000_00000000026891766608916824500000000_00000000010056111651529736900000000_00000000004155221476582981200000000_00000000001879468509639754660000000_00000000000923102737584347166000000_00000000000488792918170636672000000_00000000000277202774709437656000000_00000000000167326620950463322000000_00000000000106863874402682265000000_00000000000071794132527260801300000_00000000000050458449444874391400000_00000000000036905233398446273600000_00000000000027953167276127296200000_00000000000021828592936307936400000_00000000000017503799417811546700000_00000000000014361907498584884400000_00000000000012020468419717101800000_00000000000010235240505837433500000_00000000000008845946360243177380000_00000000000007744751537487090330000_00000000000006857424526136487840000_00000000000006131779041988626290000_00000000000005530410430162906240000,
  01754990825512020290000000000000000_00034411584812309522700000000000000_00002024210869660665300000000000000_00000198452044393503705000000000000_00000027238514245488007700000000000_00000004806794979897147540000000000_00000001036758049886883890000000000_00000000264270008115528350000000000_00000000077724821315595697400000000_00000000025906622112305532700000000_00000000009649835009730596770000000_00000000003971809815035251880000000_00000000001789556688397374640000000_00000000000875582011223327050000000_00000000000461891758146767527000000_00000000000260992673504148467000000_00000000000156990945903606196000000_00000000000099930717201457215600000_00000000000066928244402084628900000_00000000000046904125594753819500000_00000000000034216201189229656600000_00000000000025855482572818224400000_00000000000020148061040911709300000_00000000000016126041358751773500000_00000000000013209594241502880000000_00000000000011039911378214796900000_00000000000009388251818515062160000_00000000000008104758996796310210000_00000000000007088766809394325240000_00000000000006271079815505687540000_00000000000005603119050395080220000_00000000000005050110284890459200000,
  01751559755122891590000000000000000_00034210151465755330800000000000000_00002004501060957955870000000000000_00000195752055245529832000000000000_00000026762974814454235900000000000_00000004704427677957737860000000000_00000001010715395290686940000000000_00000000256625467189980178000000000_00000000075181753695268701800000000_00000000024961203011086382900000000_00000000009261457784349534090000000_00000000003797156148816310290000000_00000000001704265093180273590000000_00000000000830672044483627161000000_00000000000436561065412359460000000_00000000000245782270410415924000000_00000000000147324838491753216000000_00000000000093466816763334513800000_00000000000062404686226007401800000_00000000000043608490984709860500000_00000000000031728759696456163100000_00000000000023919150304874485800000_00000000000018599703343056130500000_00000000000014858749970554626200000_00000000000012151222591229266000000_00000000000010140454199709082500000_00000000000008612197504688167930000_00000000000007426324527409060350000_00000000000006488851505124400570000_00000000000005735271168885973080000_00000000000005120358340217644560000_00000000000004611781382971627110000,
  01748148729967400070000000000000000_00034010675678957871100000000000000_00001985058890426228120000000000000_00000193099112512950435000000000000_00000026297543163913712300000000000_00000004604626838710801140000000000_00000000985424635414991835000000000_00000000249230569939818320000000000_00000000072731314856207054200000000_00000000024053762394305208300000000_00000000008890126848318419190000000_00000000003630811251487443410000000_00000000001623340336497645650000000_00000000000788220679459317689000000_00000000000412704141190065479000000_00000000000231506898954857721000000_00000000000138283042400162984000000_00000000000087439200602590787200000_00000000000058198570678180263600000_00000000000040552171728802680000000_00000000000029427416521227480900000_00000000000022131490061052815500000_00000000000017172929657452511000000_00000000000013692925026325894800000_00000000000011179027003990370700000_00000000000009315308073216267730000_00000000000007901074387194895970000_00000000000006805281211850534720000_00000000000005940174677423490430000_00000000000005245612225309862900000_00000000000004679487024534434030000_00000000000004211735802809114280000,
  01744757555619961730000000000000000_00033813130921658123600000000000000_00001965879703538213500000000000000_00000190492218125746380000000000000_00000025841966365846324600000000000_00000004507318505621368530000000000_00000000960861262776758686000000000_00000000242076240572549560000000000_00000000070369790814611197200000000_00000000023182636459187688500000000_00000000008535032755237605770000000_00000000003472350490420234440000000_00000000001546543773747282330000000_00000000000748085112197217716000000_00000000000390230532461613455000000_00000000000218106257501572987000000_00000000000129823477291533692000000_00000000000081817290626259453300000_00000000000054286872434369317900000_00000000000037717281507093812000000_00000000000027297895823082066000000_00000000000020480836713967842000000_00000000000015858012100678161700000_00000000000012620309888079325900000_00000000000010285891675079539800000_00000000000008558258483978166460000_00000000000007249392022815163330000_00000000000006236729126038364250000_00000000000005438324566404766900000_00000000000004798099728283869220000_00000000000004276847474091554700000_00000000000003846611271588387120000,
  01741386040284911170000000000000000_00033617491124101293500000000000000_00001946958944321230010000000000000_00000187930398940964941000000000000_00000025395998766845337200000000000_00000004412431128135944360000000000_00000000937001659176240758000000000_00000000235153766508204886000000000_00000000068093629989516535600000000_00000000022346240263622864000000000_00000000008195407352176016720000000_00000000003321372398254432460000000_00000000001473650598334656310000000_00000000000710131289425669077000000_00000000000369055610972515742000000_00000000000205524103322127546000000_00000000000121907008433768423000000_00000000000076572724173699002500000_00000000000050648285327465549400000_00000000000035087304845549723900000_00000000000025327040981847289700000_00000000000018956457801910989400000_00000000000014646013887363376700000_00000000000011633329320745218600000_00000000000009465295597650109030000_00000000000007863616180851461670000_00000000000006652128554182913460000_00000000000005716190101446810530000_00000000000004979271997351833040000_00000000000004389079879002024230000_00000000000003909103219003278030000_00000000000003513342282672786330000,
  01738033994750939740000000000000000_00033423730667304785700000000000000_00001928292152900451280000000000000_00000185412706027141656000000000000_00000024959401751905794500000000000_00000004319895474543497500000000000_00000000913823060174772920000000000_00000000228454782526572449000000000_00000000065899435519390501900000000_00000000021543063710372267300000000_00000000007870521530899854710000000_00000000003177497331896467610000000_00000000001404448995064194650000000_00000000000674233345890850634000000_00000000000349100181707160267000000_00000000000193707968831288740000000_00000000000114497233528640725000000_00000000000071679188772394436100000_00000000000047263090706791769600000_00000000000032646989728281965900000_00000000000023502725175430065800000_00000000000017548477729076912500000_00000000000013528724078262961400000_00000000000010725032562330769500000_00000000000008711262310556017690000_00000000000007226172364165608070000_00000000000006104690390227168550000_00000000000005239571161565513190000_00000000000004559336992412884200000_00000000000004015217659363483690000_00000000000003573210608111774820000_00000000000003209133784888173400000,
  01734701232346494880000000000000000_00033231824373568312800000000000000_00001909874963112566840000000000000_00000182938213971913505000000000000_00000024531943516751825500000000000_00000004229644548310673990000000000_00000000891303521120079832000000000_00000000221971255663061133000000000_00000000063783957969284871800000000_00000000020771667749589964200000000_00000000007559683109060586850000000_00000000003040366213429609910000000_00000000001338739347885715350000000_00000000000640273079461612970000000_00000000000330290118701472481000000_00000000000182608898335172706000000_00000000000107560285424208184000000_00000000000067112269535482440200000_00000000000044113036101440588500000_00000000000030382248783651630000000_00000000000021813769220607794600000_00000000000016247808214525534300000_00000000000012498597777354622300000_00000000000009889041201805963890000_00000000000008018313931766161170000_00000000000006641157728158145750000_00000000000005602875381022581300000_00000000000004803131148419734090000_00000000000004175158312574687460000_00000000000003673468861495603370000_00000000000003266392980489538490000_00000000000002931437213853930240000,
  01731387568896116480000000000000000_00033041747497219213600000000000000_00001891703100187556440000000000000_00000180506020211986625000000000000_00000024113398848363040100000000000_00000004141613507740158130000000000_00000000869421884646157719000000000_00000000215695470815209455000000000_00000000061744088407348605800000000_00000000020030680787058233000000000_00000000007262234833416632450000000_00000000002909639347684625840000000_00000000001276333498352509670000000_00000000000608139461369043024000000_00000000000312556026219260959000000_00000000000172181203764955733000000_00000000000101064649496922525000000_00000000000062849308212281601700000_00000000000041181223365552836900000_00000000000028280068348293274100000_00000000000020249866078407448300000_00000000000015046084468317137000000_00000000000011548701317991402400000_00000000000009119501454861177600000_00000000000007381429108847098190000_00000000000006104205024019473450000_00000000000005142839182253926400000_00000000000004403450259247532380000_00000000000003823665671445169440000_00000000000003361054583921512520000_00000000000002986117125505378550000_00000000000002677928656124822310000,
  01728092822677687350000000000000000_00032853475715586279300000000000000_00001873772378496383560000000000000_00000178115244384655045000000000000_00000023703548913374959800000000000_00000004055739588808216880000000000_00000000848157749578478230000000000_00000000209620017023912286000000000_00000000059776851830727253800000000_00000000019318795286310505100000000_00000000006977552497670510540000000_00000000002784995311571292350000000_00000000001217054051401311420000000_00000000000577728179136920947000000_00000000000295832923465135399000000_00000000000162382237985897015000000_00000000000094980994584259769100000_00000000000058869272981935908500000_00000000000038452005550133330800000_00000000000026328424770421856400000_00000000000018801511475583817500000_00000000000013935606617266025200000_00000000000010672662017332613800000_00000000000008411040462913004310000_00000000000006796004549927140820000_00000000000005611314838701260550000_00000000000004721064531236134840000_00000000000004037402238113527590000_00000000000003502054385275673420000_00000000000003075437975854938970000_00000000000002730071827845965850000_00000000000002446488955662743750000,
  01724816814380575130000000000000000_00032666985120195603800000000000000_00001856078699362491730000000000000_00000175765027700098688000000000000_00000023302181054042479000000000000_00000003971962031044211860000000000_00000000827491441178757680000000000_00000000203737774395377366000000000_00000000057879400922021507100000000_00000000018634764553531074000000000_00000000006705043167976619110000000_00000000002666129910598183440000000_00000000001160733725299873170000000_00000000000548941209935074115000000_00000000000280059951142463736000000_00000000000153172184378911600000000_00000000000089282016436010297600000_00000000000055152638152716362600000_00000000000035910891807199939700000_00000000000024516207366315945000000_00000000000017459940139420567800000_00000000000012909285943017564500000_00000000000009864622114106806770000_00000000000007758726272914591480000_00000000000006257819827690718270000_00000000000005158824311210782590000_00000000000004334333180811250700000_00000000000003702128989736371450000_00000000000003207762244518646870000_00000000000002814303030542556760000_00000000000002496148312066192690000_00000000000002235185589225793170000,
  01721559367064643660000000000000000_00032482252208182178700000000000000_00001838618048935063110000000000000_00000173454532333719324000000000000_00000022909088591468752400000000000_00000003890222006321271410000000000_00000000807403982666841478000000000_00000000198041901631651924000000000_00000000056049010118554559400000000_00000000017977399694793213000000000_00000000006444143509616676030000000_00000000002552755198312509030000000_00000000001107214742826424330000000_00000000000521686422250441319000000_00000000000265180098290088630000000_00000000000144513861491044377000000_00000000000083942292732738819700000_00000000000051681272996097411200000_00000000000033544459688230021500000_00000000000022833147492024387600000_00000000000016217067184938355900000_00000000000011960595531985930900000_00000000000009119196537512769300000_00000000000007158031184921818190000_00000000000005763005175549192460000_00000000000004743378532352682570000_00000000000003979700259674878430000_00000000000003395017403312269850000_00000000000002938448411225595990000_00000000000002575535246276239940000_00000000000002282422417793960420000_00000000000002042256152796477950000,
  01718320306120112870000000000000000_00032299253873911157800000000000000_00001821386496122071390000000000000_00000171182940837802291000000000000_00000022524070635814679600000000000_00000003810462550433402850000000000_00000000787877067960382462000000000_00000000192525824139283601000000000_00000000054283069977709955000000000_00000000017345566735826782300000000_00000000006194318208752339280000000_00000000002444598554675088540000000_00000000001056348260948169580000000_00000000000495877203921425277000000_00000000000251139947947256913000000_00000000000136372541642594657000000_00000000000078938148793910143500000_00000000000048438339005913910000000_00000000000031340274250424288000000_00000000000021269753236490299500000_00000000000015065434231930581800000_00000000000011083524970389833300000_00000000000008431434185006543320000_00000000000006604798181219543680000_00000000000005308012019415485480000_00000000000004361904395995189150000_00000000000003654470847957517310000_00000000000003113678192807024280000_00000000000002691974163909240790000_00000000000002357203989819774420000_00000000000002087138351784811370000_00000000000001866093315309375340000,
  01715099459228246070000000000000000_00032117967400802904200000000000000_00001804380190581230850000000000000_00000168949455571819644000000000000_00000022146931903216334000000000000_00000003732628497340107390000000000_00000000768893035575953377000000000_00000000187183222687305673000000000_00000000052579081822552698700000000_00000000016738183895095971800000000_00000000005955058483549671970000000_00000000002341401819649290810000000_00000000001007993836454357810000000_00000000000471432114720748377000000_00000000000237889440303168995000000_00000000000128715782462938559000000_00000000000074247533166294260000000_00000000000045408194929152223700000_00000000000029286813431635692800000_00000000000019817249282762898900000_00000000000013998159864359011700000_00000000000010272538748459506500000_00000000000007796782414096946570000_00000000000006095210175344209040000_00000000000004889586010677827570000_00000000000004011586690116698840000_00000000000003356178575373966440000_00000000000002855926577225437990000_00000000000002466385327273731400000_00000000000002157546411678293200000_00000000000001908693876742274650000_00000000000001705231108807058440000,
  01711896656322844980000000000000000_00031938370453356126300000000000000_00001787595360767010480000000000000_00000166753298150717082000000000000_00000021777482539149305400000000000_00000003656666415965054910000000000_00000000750434843638037284000000000_00000000182008022587270132000000000_00000000050934652652840417000000000_00000000016154219001520176600000000_00000000005725880679329808430000000_00000000002242920478528364800000000_00000000000962018925174379980000000_00000000000448274561801378283000000_00000000000225381652086410262000000_00000000000121513270404855859000000_00000000000069849902345987090900000_00000000000042576308966640866400000_00000000000027373399198261320200000_00000000000018467521521082934400000_00000000000013008894076802441800000_00000000000009522538066105905820000_00000000000007211054478300940090000_00000000000005625761841752215340000_00000000000004504742346207659690000_00000000000003689846234301338860000_00000000000003082566066114640300000_00000000000002619764639896499520000_00000000000002259896238594849110000_00000000000001974952776012739500000_00000000000001745626809312090840000_00000000000001558332435865932450000,
  01708711729552532680000000000000000_00031760441069363581200000000000000_00001771028312031946800000000000000_00000164593708910552567000000000000_00000021415537947990001700000000000_00000003582524549440597370000000000_00000000732486045944994309000000000_00000000176994383369499048000000000_00000000049347490307371904700000000_00000000015592687048688571400000000_00000000005506324942736163840000000_00000000002148922895754315970000000_00000000000918298412573829480000000_00000000000426332496439934863000000_00000000000213572591040910780000000_00000000000114736675358906529000000_00000000000065726113945146116500000_00000000000039929177589453169200000_00000000000025590134010290326800000_00000000000017213066031663582700000_00000000000012091776382112237600000_00000000000008828825758166550200000_00000000000006670399660295916670000_00000000000005193233807361987150000_00000000000004150743179716952690000_00000000000003394319887154076950000_00000000000002831567070030048010000_00000000000002403365219969353220000_00000000000002070875115633328720000_00000000000001807953080183241550000_00000000000001596602711032897960000_00000000000001424177685794896540000,
  01705544513243805540000000000000000_00031584157652315004600000000000000_00001754675424780550480000000000000_00000162469946390878967000000000000_00000021060918628534529700000000000_00000003510152756694862990000000000_00000000715030769043617177000000000_00000000172136688931089961000000000_00000000047815398864410815300000000_00000000015052647877904045700000000_00000000005295953970222434780000000_00000000002059189594194550730000000_00000000000876714173672394000000000_00000000000405538130623045540000000_00000000000202421004419571088000000_00000000000108359515555595754000000_00000000000061858327667742176700000_00000000000037454250460557425900000_00000000000023927842184335538400000_00000000000016046942086204149800000_00000000000011241397281417981600000_00000000000008187074080976785450000_00000000000006171275876233535950000_00000000000004794669004909597870000_00000000000003825076945654819760000_00000000000003122842262438802500000_00000000000002601290133684964720000_00000000000002205057202220598090000_00000000000001897830702902630780000_00000000000001655204850001094840000_00000000000001460403666382847460000_00000000000001301654360814127080000,
  01702394843864835850000000000000000_00031409498963982087900000000000000_00001738533152674162060000000000000_00000160381286833286537000000000000_00000020713450015245862400000000000_00000003439502456282892010000000000_00000000698053690266269323000000000_00000000167429538132499749000000000_00000000046336274267665708800000000_00000000014533203982846904700000000_00000000005094351826458973720000000_00000000001973512577041026460000000_00000000000837154660367689934000000_00000000000385827672125044913000000_00000000000191888200504822852000000_00000000000102357032004152189000000_00000000000058229913507636601300000_00000000000035139860991461139700000_00000000000022378015769120402600000_00000000000014962728845805181300000_00000000000010452762822354022200000_00000000000007593295123647617000000_00000000000005710424544317960560000_00000000000004427351005156718750000_00000000000003525439432242651520000_00000000000002873429006735716900000_00000000000002390003677651429760000_00000000000002023312083038961410000_00000000000001739400083991306440000_00000000000001515482006876206610000_00000000000001335918051492290050000_00000000000001189747622254900820000,
  01699262559990006920000000000000000_00031236444117180489700000000000000_00001722598020885168910000000000000_00000158327023695543458000000000000_00000020372962325009628100000000000_00000003370526572367761380000000000_00000000681540016686855537000000000_00000000162867735820747942000000000_00000000044908100166007080000000000_00000000014033498429075117500000000_00000000004901122828529287950000000_00000000001891694689681637480000000_00000000000799514514379479668000000_00000000000367141076820827639000000_00000000000181937882237654010000000_00000000000096706071773124966400000_00000000000054825366627443122100000_00000000000032975162100581891800000_00000000000020932764578794082600000_00000000000013954485459217149600000_00000000000009721261994034939700000_00000000000007043813627232801670000_00000000000005284847528254455060000_00000000000004088784160615484570000_00000000000003249716454319111370000_00000000000002644261504185079780000_00000000000002196122358078510150000_00000000000001856731701180016940000_00000000000001594337557553912040000_00000000000001387664712253765980000_00000000000001222131205680221990000_00000000000001087531674862599720000,
  01696147502265163420000000000000000_00031064972568704020700000000000000_00001706866624399050730000000000000_00000156306467180794171000000000000_00000020039290409188045100000000000_00000003303179482761913370000000000_00000000665475464954013025000000000_00000000158446284258429184000000000_00000000043528943955760107500000000_00000000013552712881977764500000000_00000000004715890492044718700000000_00000000001813549019065992820000000_00000000000763694204149852560000000_00000000000349421817066125073000000_00000000000172535992103470549000000_00000000000091384979470050566800000_00000000000051630228418235944800000_00000000000030950066774100754400000_00000000000019584770057832260400000_00000000000013016714289448876400000_00000000000009042636728069985190000_00000000000006535242013094952500000_00000000000004891785982183113030000_00000000000003776675407735441400000_00000000000002995967989517962630000_00000000000002433672885540204810000_00000000000002018194601220979100000_00000000000001704037031663496450000_00000000000001461504483619181660000_00000000000001270730103121032390000_00000000000001118116925792233050000_00000000000000994161914605150731000,
  01693049513373559850000000000000000_00030895064112426295500000000000000_00001691335626362774230000000000000_00000154318943781295853000000000000_00000019712273610770301900000000000_00000003237416968942961470000000000_00000000649846241961937005000000000_00000000154160374938809357000000000_00000000042196953015031242400000000_00000000013090065737173409500000000_00000000004538296535545009190000000_00000000001738898328248483850000000_00000000000729599684147570268000000_00000000000332616665059506913000000_00000000000163650567485007459000000_00000000000086373496325491577000000_00000000000048631013278502937900000_00000000000029055193061356187200000_00000000000018327242677357457400000_00000000000012144327018867664800000_00000000000008412954293933595600000_00000000000006064457438375903830000_00000000000004528700938355583490000_00000000000003488917587549696480000_00000000000002762413653039376730000_00000000000002240135229391452010000_00000000000001854891209319090570000_00000000000001564057950102808580000_00000000000001339860015098112820000_00000000000001163743840005739800000_00000000000001023029710439064930000_00000000000000908867772053012248000,
  01689968438002490660000000000000000_00030726698872565286200000000000000_00001676001756478108000000000000000_00000152363795836193118000000000000_00000019391755626426059900000000000_00000003173196167962109250000000000_00000000634639026321175841000000000_00000000150005380768304645000000000_00000000040910351120109804300000000_00000000012644810347697022400000000_00000000004367999939776599660000000_00000000001667574523941420900000000_00000000000697142075129495219000000_00000000000316675490176489762000000_00000000000155251605749723273000000_00000000000081652666331118752200000_00000000000045815140686077050200000_00000000000027281813165638165500000_00000000000017153882586670768000000_00000000000011332613403206815700000_00000000000007828581894447677420000_00000000000005628580711671113110000_00000000000004193255492207532910000_00000000000003223574156707189590000_00000000000002547419396996261040000_00000000000002062247853134058870000_00000000000001704994945079880890000_00000000000001435723882887093340000_00000000000001228452636879028730000_00000000000001065852395848383350000_00000000000000936097687720201164000_00000000000000830946189463431229000,
  01686904122810585980000000000000000_00030559857297106356900000000000000_00001660861809438478220000000000000_00000150440381102849969000000000000_00000019077584373276756000000000000_00000003110475526166991940000000000_00000000619840950593551856000000000_00000000145976848598610964000000000_00000000039667435034534702100000000_00000000012216233342649294000000000_00000000004204676058650139120000000_00000000001599418155050797370000000_00000000000666237364009410010000000_00000000000301551069336709120000000_00000000000147310938392069554000000_00000000000077204748922483881200000_00000000000043170872169349519600000_00000000000025621806317746871600000_00000000000016058843265801334600000_00000000000010577212463509828700000_00000000000007286163283115516020000_00000000000005224956915920821040000_00000000000003883298451733486760000_00000000000002978865171722827330000_00000000000002349485330109892190000_00000000000001898726600117352930000_00000000000001567391010091995730000_00000000000001318055266050161920000_00000000000001126412441736450550000_00000000000000976276020472297927000_00000000000000856616165923165619000_00000000000000759755675224751219000,
  01683856416395757270000000000000000_00030394520151379491100000000000000_00001645912643408032660000000000000_00000148548072341276163000000000000_00000018769611860207026300000000000_00000003049214754664248250000000000_00000000605439584257091106000000000_00000000142070492091666082000000000_00000000038466571261933353200000000_00000000011803653032292121800000000_00000000004048015778874853000000000_00000000001534277940297625550000000_00000000000636806122075125088000000_00000000000287198909530589702000000_00000000000139802113600044481000000_00000000000073013137734978921800000_00000000000040687252814095467300000_00000000000024067615144073876000000_00000000000015036697945110613100000_00000000000009874085922123375370000_00000000000006782597239699529760000_00000000000004851137598271173820000_00000000000003596849329281638690000_00000000000002753154439245777080000_00000000000002167234562474617900000_00000000000001748394037505389650000_00000000000001441058339879371500000_00000000000001210155742421462070000_00000000000001032944078514850600000_00000000000000894302321153227320000_00000000000000783941752068280164000_00000000000000694710884344898903000,
  01680825169263777760000000000000000_00030230668511786555500000000000000_00001631151178541625890000000000000_00000146686256911202555000000000000_00000018467694063545872700000000000_00000002989374786450458510000000000_00000000591422917368483489000000000_00000000138282184901491434000000000_00000000037306192954226796100000000_00000000011406417894864998100000000_00000000003897724725450959070000000_00000000001472010323149433470000000_00000000000608773240379052697000000_00000000000273577081692710031000000_00000000000132700286660818904000000_00000000000069062284996440800200000_00000000000038354056969928508400000_00000000000022612205263417284900000_00000000000014082408576582108500000_00000000000009219493704530544580000_00000000000006315017753867832760000_00000000000004504864398326284280000_00000000000003332084564143713790000_00000000000002544937734259485310000_00000000000001999402988283382600000_00000000000001610170486767014570000_00000000000001325061645026582840000_00000000000001111205032819589090000_00000000000000947320313730893213000_00000000000000819280405054337697000_00000000000000717486988067737174000_00000000000000635277678246263137000,
  01677810233797482750000000000000000_00030068283759674572700000000000000_00001616574395544482510000000000000_00000144854336381376678000000000000_00000018171690806954172700000000000_00000002930917735143255200000000000_00000000577779344892148620000000000_00000000134607954157778099000000000_00000000036184796967253716100000000_00000000011023905140670233800000000_00000000003753522510373123870000000_00000000001412479052400026380000000_00000000000582067681205850846000000_00000000000260646065165450568000000_00000000000125982117662240786000000_00000000000065337631152165830500000_00000000000036161737845932101900000_00000000000021249027867412722300000_00000000000013191297158518204600000_00000000000008609971343208675840000_00000000000005880775779050338660000_00000000000004184053996898466390000_00000000000003087324873700799190000_00000000000002352831996458897910000_00000000000001844829926871662030000_00000000000001483065815458458410000_00000000000001218544133947167000000_00000000000001020452422671512380000_00000000000000868876152917629401000_00000000000000750615534089165153000_00000000000000656715458729951322000_00000000000000580968621297447498000,
  01674811464226575560000000000000000_00029907347575351092100000000000000_00001602179334270337070000000000000_00000143051726150665808000000000000_00000017881465645361795500000000000_00000002873806855247429520000000000_00000000564497651666457460000000000_00000000131043974236854286000000000_00000000035100941056298345600000000_00000000010655519349231516700000000_00000000003615142022058783520000000_00000000001355554786841562750000000_00000000000556622244593732195000000_00000000000248368602048863655000000_00000000000119625675985935330000000_00000000000061825539347949720900000_00000000000034101380708562520400000_00000000000019971985058493267300000_00000000000012359019231077217000000_00000000000008042309132909229060000_00000000000005477422429937852330000_00000000000003886784277151995400000_00000000000002861023639474921410000_00000000000002175565422668415370000_00000000000001702449549258487840000_00000000000001366171925120101810000_00000000000001120720858467589090000_00000000000000937210810568607482000_00000000000000797003472755950152000_00000000000000687764247145517065000_00000000000000601137329904380426000_00000000000000531338875307625053000,
  01671828716598024840000000000000000_00029747841932237872500000000000000_00001587963092356889850000000000000_00000141277855080570130000000000000_00000017596885752803967500000000000_00000002818006503893732510000000000_00000000551566997979059032000000000_00000000127586560806402622000000000_00000000034053241204414578400000000_00000000010300691175571313200000000_00000000003482328753165745900000000_00000000001301114722571897370000000_00000000000532373348953978795000000_00000000000236709560781306736000000_00000000000113610351123758906000000_00000000000058513234424359020300000_00000000000032164659416638759700000_00000000000018775397736815796000000_00000000000011581539374528852700000_00000000000007513532898888544740000_00000000000005102693507413201230000_00000000000003611281599001955770000_00000000000002651756242296312490000_00000000000002011968380129941750000_00000000000001571283023595657050000_00000000000001258655875732310660000_00000000000001030872628510969890000_00000000000000860851269947510107000_00000000000000731146119343091100000_00000000000000630229908585851542000_00000000000000550305278763948487000_00000000000000485982456664938107000,
  01668861848747039950000000000000000_00029589749091159200600000000000000_00001573922823897456910000000000000_00000139532165138763343000000000000_00000017317821814012613400000000000_00000002763482103990806990000000000_00000000538976905724589897000000000_00000000124232165130986915000000000_00000000033040369076822643500000000_00000000009958876121879047910000000_00000000003354840164604526110000000_00000000001249042241572489550000000_00000000000509260824896464930000000_00000000000225635808340513929000000_00000000000107916769382752455000000_00000000000055388746100942971000000_00000000000030343796048272951600000_00000000000017653975843729960500000_00000000000010855108555388492700000_00000000000007020886250757741100000_00000000000004754495244200607660000_00000000000003355909095843746160000_00000000000002458210267990132170000_00000000000001860965071860253840000_00000000000001450431318631104610000_00000000000001159753592310044240000_00000000000000948340446829337333000_00000000000000790798079349596594000_00000000000000670795431872166347000_00000000000000577558645568720764000_00000000000000503810781594271177000_00000000000000444528823947037430000,
  01665910720268610710000000000000000_00029433051594761279000000000000000_00001560055738147730100000000000000_00000137814111053292171000000000000_00000017044147919624233500000000000_00000002710200108733295350000000000_00000000526717245119305028000000000_00000000120977368626102139000000000_00000000032061049595016745200000000_00000000009629553371054776740000000_00000000003232445083682976200000000_00000000001199226580278413350000000_00000000000487227721427901096000000_00000000000215116090496700044000000_00000000000102526716074674846000000_00000000000052440856052672537100000_00000000000028631523393083811500000_00000000000016602790784230757200000_00000000000010176243177805151600000_00000000000006561814204849570470000_00000000000004430891173230182470000_00000000000003119155910214356190000_00000000000002279176511570890370000_00000000000001721565891102211060000_00000000000001339068609496448740000_00000000000001068764103904965860000_00000000000000872520418990253316000_00000000000000726524180603860509000_00000000000000615486154574335814000_00000000000000529335640042972093000_00000000000000461280727530573014000_00000000000000406639766697173726000,
  01662975192489598970000000000000000_00029277732262059227300000000000000_00001546359098266598960000000000000_00000136123159977079820000000000000_00000016775741464871439200000000000_00000002658127967411654130000000000_00000000514778221948366151000000000_00000000117818877649080316000000000_00000000031114058624563499200000000_00000000009312224678813054460000000_00000000003114923134444542990000000_00000000001151562516942560030000000_00000000000466220123744381826000000_00000000000205120919588231561000000_00000000000097423062814863717700000_00000000000049659048602694627200000_00000000000027021050100097543300000_00000000000015617249864528625700000_00000000000009541705708811776660000_00000000000006133948067395118840000_00000000000004130090028704518460000_00000000000002899627291881906180000_00000000000002113540713960017240000_00000000000001592860407221968130000_00000000000001236436234884498520000_00000000000000985044269565976079000_00000000000000802859097709010455000_00000000000000667547027827193097000_00000000000000564792703037018207000_00000000000000485181744280229782000_00000000000000422374329481348080000_00000000000000372006568668472653000,
  01660055128441369180000000000000000_00029123774183108340000000000000000_00001532830220090021480000000000000_00000134458791162391434000000000000_00000016512483051630603200000000000_00000002607234092471574910000000000_00000000503150365322660801000000000_00000000114753518515770737000000000_00000000030198220770893029500000000_00000000009006413321219703900000000_00000000003002064198377473590000000_00000000001105950076671378350000000_00000000000446186981890935481000000_00000000000195622469326579079000000_00000000000092589699581741326000000_00000000000047033464775651208900000_00000000000025506028287487858500000_00000000000014693072593486312000000_00000000000008948486756379673270000_00000000000005735091479432778360000_00000000000003850434597184189680000_00000000000002696035488178460220000_00000000000001960275970759548160000_00000000000001474010930277195130000_00000000000001141837159028923280000_00000000000000908003949719959582000_00000000000000738849224163831478000_00000000000000613424793373746034000_00000000000000518325753985552411000_00000000000000444750391557841105000_00000000000000386780306026896154000_00000000000000340347421215107386000,
  01657150392832945700000000000000000_00028971160713796346200000000000000_00001519466470936963900000000000000_00000132820495644932103000000000000_00000016254256393703172800000000000_00000002557487827773169930000000000_00000000491824515923105488000000000_00000000111778232732467413000000000_00000000029312407277688389900000000_00000000008711663094710967310000000_00000000002893667903780997910000000_00000000001062294253079819190000000_00000000000427079949608401097000000_00000000000186594476170886868000000_00000000000088011471212913406900000_00000000000044554859474461367700000_00000000000024080523434842724400000_00000000000013826268708295652800000_00000000000008393788488724637840000_00000000000005363207532299178950000_00000000000003590391442733731030000_00000000000002507191362181545600000_00000000000001818435757666221970000_00000000000001364246605938486440000_00000000000001054630895870809410000_00000000000000837101585006487713000_00000000000000680025832168397014000_00000000000000563752899818644713000_00000000000000475729130327393271000_00000000000000407724776107742173000_00000000000000354214310403115805000_00000000000000311405064672928321000,
  01654260852024685110000000000000000_00028819875470753510700000000000000_00001506265268446462420000000000000_00000131207775937259976000000000000_00000016000948225213072300000000000_00000002508859418002232990000000000_00000000480791814711412634000000000_00000000108890072433081648000000000_00000000028455534022765628600000000_00000000008427537365810767360000000_00000000002789543142176427520000000_00000000001020504745578873480000000_00000000000408853232732342330000000_00000000000178012146843744216000000_00000000000083674118036645532600000_00000000000042214561560715682800000_00000000000022738986392065259800000_00000000000013013117795479326100000_00000000000007875009292058121220000_00000000000005016406869834672990000_00000000000003348541436339930170000_00000000000002331996679656740100000_00000000000001687147521735184130000_00000000000001262857996523397750000_00000000000000974228856427864791000_00000000000000771840147862806962000_00000000000000625962684030712542000_00000000000000518160849755879958000_00000000000000436676955730542553000_00000000000000373815278728234676000_00000000000000324416584796613079000_00000000000000284944637542737677000,
  01651386374002451540000000000000000_00028669902326377512200000000000000_00001493224079444890560000000000000_00000129620145731208552000000000000_00000015752448212007285100000000000_00000002461319979187939730000000000_00000000470043692087276033000000000_00000000106086196012054703000000000_00000000027626559606607343800000000_00000000008153618167918182300000000_00000000002689507610246665280000000_00000000000980495711370528255000000_00000000000391463446550079972000000_00000000000169852071588792636000000_00000000000079564220358678085700000_00000000000040004436634793768000000_00000000000021476227351407350000000_00000000000012250150388175331700000_00000000000007389729572024186810000_00000000000004692936700127629590000_00000000000003123571025476286570000_00000000000002169437010537921900000_00000000000001565606791937277680000_00000000000001169192107632535550000_00000000000000900090083701141032000_00000000000000711763435135633037000_00000000000000576269009624545786000_00000000000000476309327648567345000_00000000000000400871055262634659000_00000000000000342757116535186249000_00000000000000297149820104731616000_00000000000000260751715084117725000,
  01648526828352284140000000000000000_00028521225403970120200000000000000_00001480340418842546290000000000000_00000128057129609023290000000000000_00000015508648865951171800000000000_00000002414841470283308770000000000_00000000459571857472856362000000000_00000000103363863943976365000000000_00000000026824483528967935800000000_00000000007889505342684361940000000_00000000002593387375877233350000000_00000000000942185531282406771000000_00000000000374869481560494234000000_00000000000162092142797812574000000_00000000000075669146543981842000000_00000000000037916852326586234900000_00000000000020287391640577582000000_00000000000011534130429762476900000_00000000000006935698611468817510000_00000000000004391170645770885940000_00000000000002914264184883659370000_00000000000002018575195180640030000_00000000000001453071766331807620000_00000000000001082647823289659220000_00000000000000831717342488320808000_00000000000000656452672718662269000_00000000000000530586522661985039000_00000000000000437887550212736447000_00000000000000368038580673208722000_00000000000000314308197224634199000_00000000000000272197203070317946000_00000000000000238630520562289866000,
  01645682086235545170000000000000000_00028373829072982784600000000000000_00001467611848558701520000000000000_00000126518262762928309000000000000_00000015269445462014353800000000000_00000002369396665766612700000000000_00000000449368289306329178000000000_00000000100720434781321240000000000_00000000026048344449209848700000000_00000000007634815723636552610000000_00000000002501016466955984870000000_00000000000905496588628074232000000_00000000000359032377117212593000000_00000000000154711478660050654000000_00000000000071977004451275702100000_00000000000035944645921372731700000_00000000000019167937205434099300000_00000000000010862039002274971600000_00000000000006510822404004260070000_00000000000004109599367254839650000_00000000000002719494994406238330000_00000000000001878545329711704290000_00000000000001348858336728040720000_00000000000001002671715610084640000_00000000000000768653534246500954000_00000000000000605523405701752135000_00000000000000488586690403662689000_00000000000000402610843862365511000_00000000000000337929840776778969000_00000000000000288247159946542729000_00000000000000249360634301191347000_00000000000000218402293879237056000,
  01642852020364538420000000000000000_00028227697944368330200000000000000_00001455035976474284990000000000000_00000125003090722849160000000000000_00000015034735958047083600000000000_00000002324959129223709540000000000_00000000439425225427095331000000000_00000000098153361322137157800000000_00000000025297218526257743100000000_00000000007389182359837197820000000_00000000002412236481667526450000000_00000000000870355060329232579000000_00000000000343915202469340722000000_00000000000147690351509910631000000_00000000000068476595995032091800000_00000000000034081094158062050900000_00000000000018113613660536155900000_00000000000010231059225789928600000_00000000000006113152389105295490000_00000000000003846821899315749660000_00000000000002538220794099569320000_00000000000001748547228545756690000_00000000000001252335514961309880000_00000000000000928754197878688012000_00000000000000710478409683488557000_00000000000000558622649789890666000_00000000000000449968235095620643000_00000000000000370218429610800542000_00000000000000310316319104376758000_00000000000000264371586464435956000_00000000000000228459102142309603000_00000000000000199903803676315864000,
  01640036504978587100000000000000000_00028082816866036036300000000000000_00001442610455411396090000000000000_00000123511169092027451000000000000_00000014804420917150939500000000000_00000002281503187872965150000000000_00000000429735153836050096000000000_00000000095660186939920551300000000_00000000024570217834272555000000000_00000000007152253777488739380000000_00000000002326896219092380010000000_00000000000836690719583029534000000_00000000000329482944745181914000000_00000000000141010120570864595000000_00000000000065157374625381653500000_00000000000032319885048715966600000_00000000000017120442794848278500000_00000000000009638562242105097440000_00000000000005740875020250392300000_00000000000003601537644832346140000_00000000000002369475870845993140000_00000000000001627841325575859900000_00000000000001162921227888809510000_00000000000000860425992533235062000_00000000000000656805554075454582000_00000000000000515426281826057777000_00000000000000414454847295778190000_00000000000000340471397527752461000_00000000000000284988862550871318000_00000000000000242496367711372685000_00000000000000209327198697183015000_00000000000000182985990230696294000,
  01637235415820561260000000000000000_00027939170918407455100000000000000_00001430332982138873230000000000000_00000122042063290272565000000000000_00000014578403432551435100000000000_00000002239003907996058990000000000_00000000420290803815064675000000000_00000000093238542068293206100000000_00000000023866488850350498200000000_00000000006923693277510231570000000_00000000002244851328990366910000000_00000000000804436749401686111000000_00000000000315702403453581597000000_00000000000134653168813662815000000_00000000000062009405530887321000000_00000000000030655091579126848600000_00000000000016184700428225824700000_00000000000009082094202603297470000_00000000000005392302102938846920000_00000000000003372538975253214230000_00000000000002212365634402327180000_00000000000001515743978696184860000_00000000000001080078450939197380000_00000000000000797254887941380551000_00000000000000607279622429110988000_00000000000000475636649148932703000_00000000000000381793092964105560000_00000000000000313150854406119670000_00000000000000261756026167877131000_00000000000000222452212161604342000_00000000000000191813765505728228000_00000000000000167512727593010919000,
  01634448630113844670000000000000000_00027796745410070401400000000000000_00001418201296403165550000000000000_00000120595348304604722000000000000_00000014356589054883724200000000000_00000002197437071239514350000000000_00000000411085137390554150000000000_00000000090886140833454593500000000_00000000023185211010743963500000000_00000000006703178267220638270000000_00000000002165963979712895890000000_00000000000773529566392805521000000_00000000000302542091104773436000000_00000000000128602843665739573000000_00000000000059023328382672100500000_00000000000029081147160266019400000_00000000000015302899522013565100000_00000000000008559364186268684960000_00000000000005065861844312159870000_00000000000003158704390573145270000_00000000000002066061244192239670000_00000000000001411623145204640360000_00000000000001003311652550179630000_00000000000000738842760049474662000_00000000000000561573803545515917000_00000000000000438980379249682087000_00000000000000351750497753143082000_00000000000000288056229712034186000_00000000000000240442560549539235000_00000000000000204084283630523184000_00000000000000175780657488977800000_00000000000000153359694438412799000,
  01631676026539731500000000000000000_00027655525873528621900000000000000_00001406213179983780580000000000000_00000119170608447052402000000000000_00000014138885721806027300000000000_00000002156779151753271910000000000_00000000402111341126691319000000000_00000000088600777827725151700000000_00000000022525595332282611600000000_00000000006490399624366122120000000_00000000002090102543250053020000000_00000000000743908654187252908000000_00000000000289972139578027542000000_00000000000122843401326228757000000_00000000000056190322450931941600000_00000000000027592822709726007100000_00000000000014471774454208717500000_00000000000008068232979418572710000_00000000000004760090560617934860000_00000000000002958992195587655970000_00000000000001929794651266554150000_00000000000001314894398283675120000_00000000000000932163524118748178000_00000000000000684822836985623393000_00000000000000519387493815803587000_00000000000000405206372775974372000_00000000000000324113793362420426000_00000000000000265003726186718555000_00000000000000220888029441993774000_00000000000000187250957203419615000_00000000000000161101614776438466000_00000000000000140413344036794213000,
  01628917485215243330000000000000000_00027515498061044718600000000000000_00001394366455772604100000000000000_00000117767437119375459000000000000_00000013925203689858697800000000000_00000002117007294134036730000000000_00000000393362818234478013000000000_00000000086380325017819401400000000_00000000021886883095844348100000000_00000000006285061091825140280000000_00000000002017141296475879260000000_00000000000715516405957565057000000_00000000000277964211887134851000000_00000000000117359954457310105000000_00000000000053502073936516211500000_00000000000026185205250901301200000_00000000000013688266376221743900000_00000000000007606702653880142710000_00000000000004473624992908646880000_00000000000002772434652567683010000_00000000000001802854022711596920000_00000000000001225017257188553610000_00000000000000866211972187410561000_00000000000000634857186534127961000_00000000000000480444163200860037000_00000000000000374083964378868950000_00000000000000298687312123466494000_00000000000000243824902650855139000_00000000000000202945546286890754000_00000000000000171822682985467450000_00000000000000147661232948133101000_00000000000000128569964598361810000,
  01626172887671357350000000000000000_00027376647940573976500000000000000_00001382658986876410480000000000000_00000116385436584493357000000000000_00000013715455468490008800000000000_00000002078099292142476440000000000_00000000384833180983506105000000000_00000000084222728781794631600000000_00000000021268344588887899500000000_00000000006086878701416095020000000_00000000001946960137709218160000000_00000000000688297975503625169000000_00000000000266491419016921422000000_00000000000112138423037791062000000_00000000000050950745371079330600000_00000000000024853677925640642200000_00000000000012949509574353762100000_00000000000007172906885108210540000_00000000000004205195185194291710000_00000000000002598132573635393120000_00000000000001684579518409661450000_00000000000001141491806002519830000_00000000000000805067351512826786000_00000000000000588634408077958986000_00000000000000444489397330263143000_00000000000000345401237221152397000_00000000000000275291517172261459000_00000000000000224365377641134944000_00000000000000186480619394208423000_00000000000000157680948269754857000_00000000000000135354023058402272000_00000000000000117734822025523518000,
  01623442116831636660000000000000000_00027238961691786807300000000000000_00001371088675741904010000000000000_00000115024217744405661000000000000_00000013509555756172768100000000000_00000002040033568164635280000000000_00000000376516243403831169000000000_00000000082126007068911993300000000_00000000020669277904211904400000000_00000000005895580225317986220000000_00000000001879444317758243990000000_00000000000662201136413971935000000_00000000000255528241524680505000000_00000000000107165488178970070000000_00000000000048528946949358984200000_00000000000023593901323506948100000_00000000000012252818764736895200000_00000000000006765101956139615910000_00000000000003953617882793458430000_00000000000002435250319009421600000_00000000000001574359392465956510000_00000000000001063855577864224530000_00000000000000748369919425590944000_00000000000000545867512143542917000_00000000000000411289101012585276000_00000000000000318963478174836307000_00000000000000253761656653023776000_00000000000000206483643493520562000_00000000000000171370096338040206000_00000000000000144717329544829818000_00000000000000124083553569606118000_00000000000000107821377807878164000,
  01620725056991254060000000000000000_00027102425702177590100000000000000_00001359653463302652060000000000000_00000113683399924399381000000000000_00000013307421378538769100000000000_00000002002789153389157950000000000_00000000368406014265944158000000000_00000000080088246676923031900000000_00000000020089007792250313200000000_00000000005710904653695293930000000_00000000001814484184664445430000000_00000000000637176148840745922000000_00000000000245050455619739270000000_00000000000102428548715998894000000_00000000000046229709666475288500000_00000000000022401796037642733800000_00000000000011595677255688576300000_00000000000006381658397340721240000_00000000000003717790411875875540000_00000000000002283011169944138940000_00000000000001471626393830661080000_00000000000000991680683449986919000_00000000000000695787493505042663000_00000000000000506291972089950393000_00000000000000380627849690297361000_00000000000000294591761840747230000_00000000000000233946531390137499000_00000000000000190049981386779283000_00000000000000157501198988711944000_00000000000000132832626515195560000_00000000000000113761667017535982000_00000000000000098750575440164023500,
  01618021593796400700000000000000000_00026967026563257748900000000000000_00001348351328147291410000000000000_00000112362610663344912000000000000_00000013108971228460868200000000000_00000001966345668673091940000000000_00000000360496690327361908000000000_00000000078107600641556798700000000_00000000019526884564350918300000000_00000000005532601697194478770000000_00000000001751974941406636880000000_00000000000613175633454041507000000_00000000000235035063452434511000000_00000000000097915680400232979200000_00000000000044046460141823440300000_00000000000021273526363599929200000_00000000000010975725916245229800000_00000000000006021053215653476100000_00000000000003496685004183127430000_00000000000002140693047631528290000_00000000000001375854442679093100000_00000000000000924571164215979994000_00000000000000647013296073385371000_00000000000000469663933773638737000_00000000000000352307376507950053000_00000000000000272121652533425586000_00000000000000215707366372011457000_00000000000000174945468680543163000_00000000000000144770641342430941000_00000000000000121936070993909103000_00000000000000104307764862610327000_00000000000000090450189328920208400,
  01615331614224071230000000000000000_00026832751066830972100000000000000_00001337180285708408700000000000000_00000111061485509889215000000000000_00000012914126208015145600000000000_00000001930683306070158960000000000_00000000352782649834867242000000000_00000000076182285733231454200000000_00000000018982283044613475200000000_00000000005360431313051303490000000_00000000001691816415867677050000000_00000000000590154452167451995000000_00000000000225460227360644318000000_00000000000093615597529493355800000_00000000000041972997019197884900000_00000000000020205485063390875900000_00000000000010390752894094837500000_00000000000005681862670507005070000_00000000000003289343533673376150000_00000000000002007624551583172490000_00000000000001286555560982322160000_00000000000000862160552486167358000_00000000000000601763970370386428000_00000000000000435758570200323187000_00000000000000326145183701117215000_00000000000000251402014298119770000_00000000000000198916777219205562000_00000000000000161061070631394707000_00000000000000133083822992006237000_00000000000000111944604151767809000_00000000000000095648154557248626500_00000000000000082854230687445727600,
  01612655006562217550000000000000000_00026699586201348533300000000000000_00001326138387471514280000000000000_00000109779667824361491000000000000_00000012722809172258163300000000000_00000001895782810996458610000000000_00000000345258446271915143000000000_00000000074310580056250444200000000_00000000018454601567986533700000000_00000000005194163253615911300000000_00000000001633912842406163660000000_00000000000568069595250983559000000_00000000000216305207837791259000000_00000000000089517616863820391200000_00000000000040003468840283455800000_00000000000019194279122486595800000_00000000000009838684030249248920000_00000000000005362755556758201670000_00000000000003094872634379258690000_00000000000001883181293079515530000_00000000000001203277037418398540000_00000000000000804109621922591168000_00000000000000559777754513933552000_00000000000000404368569256575765000_00000000000000301973267964060055000_00000000000000232293919871011739000_00000000000000183457823566088825000_00000000000000148296809254517783000_00000000000000122354091704778881000_00000000000000102782216177856996000_00000000000000087715453385161077800_00000000000000075902405405049538000,
  01609991660390262950000000000000000_00026567519148342734700000000000000_00001315223720203547430000000000000_00000108516808586212993000000000000_00000012534944874756785400000000000_00000001861625465009592550000000000_00000000337918802341184130000000000_00000000072490820745967556600000000_00000000017943261022438178100000000_00000000005033576636166489580000000_00000000001578172654412599720000000_00000000000546880074470376824000000_00000000000207550305000972084000000_00000000000085611623684233390300000_00000000000038132353295619519500000_00000000000018236716432561178400000_00000000000009317573921611186060000_00000000000005062486957977070700000_00000000000002912439171112851810000_00000000000001766782501178496070000_00000000000001125598808353179720000_00000000000000750104313246232895000_00000000000000520812800492233651000_00000000000000375302743603826057000_00000000000000279636950323781674000_00000000000000214669650265786251000_00000000000000169223141976839002000_00000000000000136561002723000196000_00000000000000112502069142019069000_00000000000000094379342926343757000_00000000000000080448044107188554800_00000000000000069539619319799449000,
  01607341466559969200000000000000000_00026436537278936545100000000000000_00001304434405200368010000000000000_00000107272566206818747000000000000_00000012350459914810378300000000000_00000001828193069178177290000000000_00000000330758604172692833000000000_00000000070721401759618107000000000_00000000017447703933125751300000000_00000000004878459532942629050000000_00000000001524508287264539910000000_00000000000526546821913312702000000_00000000000199176803351649119000000_00000000000081888039861271418900000_00000000000036354437763625042800000_00000000000017329793337486850800000_00000000000008825597586121162260000_00000000000004779892436119615860000_00000000000002741266036813500740000_00000000000001657887880529174630000_00000000000001053131038070922700000_00000000000000699853821299048036000_00000000000000484645626479167030000_00000000000000348384752724289575000_00000000000000258993801844011511000_00000000000000198411777375507465000_00000000000000156114151648440306000_00000000000000125769569267132007000_00000000000000103455034272476155000_00000000000000086672314598773531300_00000000000000073789577884900134700_00000000000000063715526727848652400,
  01604704317176648870000000000000000_00026306628150427562300000000000000_00001293768597552706860000000000000_00000106046606347474849000000000000_00000012169282686307465900000000000_00000001795467928019650320000000000_00000000323772895748321808000000000_00000000069000771756715741600000000_00000000016967393586593653500000000_00000000004728608580386374520000000_00000000001472835991128161520000000_00000000000507032594183084075000000_00000000000191166919634224106000000_00000000000078337793808726875000000_00000000000034664801054301022200000_00000000000016470682984450268400000_00000000000008361042688437623720000_00000000000004513882626150464110000_00000000000002580628252327917570000_00000000000001555994701850322590000_00000000000000985511882768841124000_00000000000000653088830659987112000_00000000000000451069691723215960000_00000000000000323451927939040098000_00000000000000239912657211010039000_00000000000000183412322624200322000_00000000000000144040326730671216000_00000000000000115845390056759053000_00000000000000095146359505876649900_00000000000000079602851943798308200_00000000000000067688520351161113700_00000000000000058384118330451732600,
  01602080105580715660000000000000000_00026177779502944478800000000000000_00001283224485430063380000000000000_00000104838601742430714000000000000_00000011991343328161074500000000000_00000001763432833985170480000000000_00000000316956873533981015000000000_00000000067327432065106471300000000_00000000016501813193126796100000000_00000000004583828606632653360000000_00000000001423075653084693890000000_00000000000488301881659173588000000_00000000000183503753609866740000000_00000000000074952292206037916400000_00000000000033058796279834570600000_00000000000015656724426112002100000_00000000000007922302287129477820000_00000000000004263438206505306310000_00000000000002429849346250616000000_00000000000001460635107420339380000_00000000000000922405424056294350000_00000000000000609559888058170697000_00000000000000419894084139760102000_00000000000000300354191979431093000_00000000000000222272708919693458000_00000000000000169571985292760747000_00000000000000132918529620633601000_00000000000000106717726025254235000_00000000000000087514995003937274300_00000000000000073117605850921616300_00000000000000062097737059744340600_00000000000000053503345155169657900,
  01599468726329565490000000000000000_00026049979256174280100000000000000_00001272800289382054640000000000000_00000103648232026801097000000000000_00000011816573676269085900000000000_00000001732071052471269850000000000_00000000310305881311045015000000000_00000000065699934728954083300000000_00000000016050465085480566400000000_00000000004443932276341452010000000_00000000001375150628089301520000000_00000000000470320822541870640000000_00000000000176171241574243486000000_00000000000071723393380319420900000_00000000000031532034779546411500000_00000000000014885412423491388200000_00000000000007507868067162187920000_00000000000004027605218434487040000_00000000000002288297994148735330000_00000000000001371373615293623950000_00000000000000863499758826981059000_00000000000000569035900772500431000_00000000000000390942311543042697000_00000000000000278953065390264241000_00000000000000205962675388725120000_00000000000000156799434683596644000_00000000000000122672400071477718000_00000000000000098321684027909154900_00000000000000080504997020526165600_00000000000000067167736574841929700_00000000000000056974114876888874600_00000000000000049034775293412449500,
  01596870075179781440000000000000000_00025923215506158457500000000000000_00001262494261656735510000000000000_00000102475183569207994000000000000_00000011644907216947903500000000000_00000001701366307338734220000000000_00000000303815405199041768000000000_00000000064116880635104536700000000_00000000015612869952296502100000000_00000000004308739752011964570000000_00000000001328987578297464420000000_00000000000453057121414662888000000_00000000000169154112458339733000000_00000000000068643382246022313000000_00000000000030080371031478629900000_00000000000014154387902749373700000_00000000000007116324024053761970000_00000000000003805490709257391190000_00000000000002155384898059900070000_00000000000001287804807219114530000_00000000000000808505233409523038000_00000000000000531302751075837614000_00000000000000364051188193866394000_00000000000000259120752681901626000_00000000000000190880036891729365000_00000000000000145010660782076158000_00000000000000113231795395568775000_00000000000000090597728124128206700_00000000000000074065096482276036200_00000000000000061708529155371534500_00000000000000052278216179351834300_00000000000000044943280575026207000,
  01594284049069655710000000000000000_00025797476522156557500000000000000_00001252304685535424270000000000000_00000101319149309007586000000000000_00000011476279041789652800000000000_00000001671302766919972760000000000_00000000297481068861927859000000000_00000000062576917714441804600000000_00000000015188566104596576500000000_00000000004178078370964128770000000_00000000001284516320319737940000000_00000000000436479972073719327000000_00000000000162437846361438549000000_00000000000065704946706752775100000_00000000000028699888487438231600000_00000000000013461429022282629400000_00000000000006746340568480894760000_00000000000003596258676395263930000_00000000000002030559888595340150000_00000000000001209551186397821500000_00000000000000757152810855547284000_00000000000000496162017579857964000_00000000000000339069809017664660000_00000000000000240739301733862350000_00000000000000176930333703063333000_00000000000000134128378524399464000_00000000000000104532277445018708000_00000000000000083491232135012541700_00000000000000068148304349247141200_00000000000000056699041897489815200_00000000000000047973962998538553900_00000000000000041196750554508662200,
  01591710546102021810000000000000000_00025672750743575444600000000000000_00001242229874683582030000000000000_00000100179828597962298000000000000_00000011310625803894973700000000000_00000001641865030496887950000000000_00000000291298628890613816000000000_00000000061078739215004334800000000_00000000014777108773828293200000000_00000000004051782337215647370000000_00000000001241669679990104080000000_00000000000420559984388408688000000_00000000000156008635374557304000000_00000000000062901155429888477400000_00000000000027386886272518417600000_00000000000012804442809551405000000_00000000000006396669022342686430000_00000000000003399126290749381530000_00000000000001913309233312602510000_00000000000001136261192285795090000_00000000000000709192561101596947000_00000000000000463429795069652857000_00000000000000315858604470130246000_00000000000000223699830488852636000_00000000000000164026521324662520000_00000000000000124081481194539771000_00000000000000096514642420556946700_00000000000000076952069958750331100_00000000000000062711550594907589700_00000000000000052101785049398951100_00000000000000044028348501089362400_00000000000000037765831414829894500,
  01589149465527390770000000000000000_00025549026776962689500000000000000_00001232268172517308360000000000000_00000099056927046222726800000000000_00000011147885675435223100000000000_00000001613038115231974250000000000_00000000285263970354718760000000000_00000000059621082043780289900000000_00000000014378069440007950200000000_00000000003929692427522914880000000_00000000001200383354256037540000000_00000000000405269114970529595000000_00000000000149853346561291529000000_00000000000060225436910328627500000_00000000000026137866694035777400000_00000000000012181457329858359500000_00000000000006066136479353079690000_00000000000003213360379562765960000_00000000000001803153136251595200000_00000000000001067607360634428220000_00000000000000664392264548152955000_00000000000000432935605090461161000_00000000000000294288469598749887000_00000000000000207901815467783890000_00000000000000152088378089039484000_00000000000000114804538850729064000_00000000000000089124489896134972900_00000000000000070934240428417469800_00000000000000057715353918253599600_00000000000000047882427065801740100_00000000000000040411173424995429600_00000000000000034623687605741708400,
  01586600707727384750000000000000000_00025426293393062546500000000000000_00001222417951585028740000000000000_00000097950156372488742100000000000_00000010987998306499599500000000000_00000001584807443536061020000000000_00000000279373102516834675000000000_00000000058202725174241397800000000_00000000013991035188580663800000000_00000000003811655710892367580000000_00000000001160595779819990980000000_00000000000390580601442824733000000_00000000000143959486971112528000000_00000000000057671559745036315100000_00000000000024949523508468483600000_00000000000011590614351891648900000_00000000000005753641005145736880000_00000000000003038274150356765760000_00000000000001699643414662494680000_00000000000001003284617868031560000_00000000000000622536120341443863000_00000000000000404521390167501036000_00000000000000274239961372682866000_00000000000000193252437086916590000_00000000000000141041960825928622000_00000000000000106237338027618089000_00000000000000082311827754188923300_00000000000000065395523772834602700_00000000000000053123519550621304900_00000000000000044009526071126292500_00000000000000037094805298867268100_00000000000000031745784225701436300,
  01584064174198462000000000000000000_00025304539523933018800000000000000_00001212677612963962160000000000000_00000096859234258223416000000000000_00000010830904785184328000000000000_00000001557158830856772780000000000_00000000273622154702867794000000000_00000000056822488116809979200000000_00000000013615608094683275800000000_00000000003697525280904777400000000_00000000001122248008182334620000000_00000000000376468900109463316000000_00000000000138315170567748128000000_00000000000055233614045001274500000_00000000000023818730898377172300000_00000000000011030162477257421200000_00000000000005458147153647869500000_00000000000002873224138877895620000_00000000000001602361340001644080000_00000000000000943008699735421785000_00000000000000583423551326805468000_00000000000000378040585108236372000_00000000000000255602558834356816000_00000000000000179665977171288010000_00000000000000130819104639410690000_00000000000000098324459276480774500_00000000000000076030710007621281100_00000000000000060297166993298731600_00000000000000048902862747731676300_00000000000000040454284345004444800_00000000000000034053958462169887200_00000000000000029109688331772137600,
  01581539767535927200000000000000000_00025183754260122554800000000000000_00001203045585670969880000000000000_00000095783884205797663000000000000_00000010676547598882603500000000000_00000001530078473872409080000000000_00000000268007372322298702000000000_00000000055479229449581874900000000_00000000013251404633560298400000000_00000000003587160000229039660000000_00000000001085283586754942210000000_00000000000362909626842554201000000_00000000000132909086962378408000000_00000000000052905993915892954900000_00000000000022742533114454254100000_00000000000010498450703468005500000_00000000000005178681778123018280000_00000000000002717607365233709880000_00000000000001510915631238809280000_00000000000000886514684943524212000_00000000000000546868098270936646000_00000000000000353357259358690757000_00000000000000238273981067533116000_00000000000000167063264437203301000_00000000000000121356963171432042000_00000000000000091014889395183871700_00000000000000070238904741588448200_00000000000000055603595699387975300_00000000000000045022955765664263300_00000000000000037190323841723568400_00000000000000031265493077692159700_00000000000000026694887521601892200,
  01579027391418221070000000000000000_00025063926847904956800000000000000_00001193520326087397990000000000000_00000094723835400447510700000000000_00000010524870596735488600000000000_00000001503552939076549310000000000_00000000262525113032464305000000000_00000000054171845406749917600000000_00000000012898055115943771400000000_00000000003480424256734173800000000_00000000001049648445732668850000000_00000000000349879501009442560000000_00000000000127730471848031973000000_00000000000050683380943010075000000_00000000000021718134740795356100000_00000000000009993922391934932260000_00000000000004914330116806639790000_00000000000002570858683546897140000_00000000000001424940589412330260000_00000000000000833555635191930577000_00000000000000512696396528899986000_00000000000000330345324865401684000_00000000000000222159558381709191000_00000000000000155371164063687623000_00000000000000112597586029027380000_00000000000000084261665464408702500_00000000000000064897589643178578900_00000000000000051282150157521767100_00000000000000041455896309509584700_00000000000000034193480928213539200_00000000000000028708231485714372400_00000000000000024482624277206085100,
  01576526950591483810000000000000000_00024945046686571121600000000000000_00001184100317397538570000000000000_00000093678822575929837000000000000_00000010375818953205406800000000000_00000001477569151739264430000000000_00000000257171843041214546000000000_00000000052899268522288602500000000_00000000012555203147265500400000000_00000000003377187730638672400000000_00000000001015290790426983610000000_00000000000337356292275589307000000_00000000000122769079037802888000000_00000000000048560728620184503600000_00000000000020742891544233703000000_00000000000009515109614451990890000_00000000000004664232134471521410000_00000000000002432448311521339280000_00000000000001344094363193596690000_00000000000000783901333682777110000_00000000000000480747228864188975000_00000000000000308887804335762403000_00000000000000207171652484592076000_00000000000000144522107791061382000_00000000000000104487530328612671000_00000000000000078021548048899632700_00000000000000059971072801935398100_00000000000000047302843498275506200_00000000000000038176095616987163500_00000000000000031441618682859243800_00000000000000026362790393625494900_00000000000000022455744693031504500,
  01574038350854386390000000000000000_00024827103325776268900000000000000_00001174784069040344770000000000000_00000092648585883766174800000000000_00000010229339132735250300000000000_00000001452114385231370640000000000_00000000251944133542535063000000000_00000000051660466326571005500000000_00000000012222505109624779400000000_00000000003277325172165097460000000_00000000000982160998782062795000000_00000000000325318770127275209000000_00000000000118015154015351094000000_00000000000046533247666083705000000_00000000000019814301871138636900000_00000000000009060627853453470300000_00000000000004427579102570774850000_00000000000002301879527299134330000_00000000000001268057335984215270000_00000000000000737337114784629515000_00000000000000450870648620348540000_00000000000000288876155195013194000_00000000000000193229121755758892000_00000000000000134453661276635591000_00000000000000096977503563587053200_00000000000000072254721144247823000_00000000000000055426536660665384000_00000000000000043638140204176841100_00000000000000035160084497780325500_00000000000000028914455241372632900_00000000000000024211427526349080700_00000000000000020598560331811361100,
  01571561499043224570000000000000000_00024710086462941350500000000000000_00001165570116174046720000000000000_00000091632870765967816200000000000_00000010085378855457456700000000000_00000001427176250698689360000000000_00000000246838657279954648000000000_00000000050454440093694074000000000_00000000011899629665486537700000000_00000000003180716189195028710000000_00000000000950211523808777214000000_00000000000313746655967248536000000_00000000000113459408911625813000000_00000000000044596392174895137200000_00000000000018929998557466259400000_00000000000008629171033006398050000_00000000000004203610401822071280000_00000000000002178686521899587200000_00000000000001196530625773128080000_00000000000000693662778086338562000_00000000000000422927167893908768000_00000000000000270209644910937944000_00000000000000180256828048045995000_00000000000000125108125705148797000_00000000000000090022035233135018800_00000000000000066924516652657384300_00000000000000051233803175643401200_00000000000000040262753160290786000_00000000000000032386335794046964600_00000000000000026593406807328155700_00000000000000022237901482983567700_00000000000000018896722062065901800,
  01569096303017270000000000000000000_00024593985940707367500000000000000_00001156457019153325100000000000000_00000090631427831138947500000000000_00000009943887063918682720000000000_00000001402742687073784790000000000_00000000241852185232773637000000000_00000000049280223637388442300000000_00000000011586257282134043400000000_00000000003087245044445204900000000_00000000000919396800686273158000000_00000000000302620577644781674000000_00000000000109092998826885783000000_00000000000042745846551684624300000_00000000000018087741320075537800000_00000000000008219506859052116800000_00000000000003991610532224922840000_00000000000002062432396375500150000_00000000000001129234689631300330000_00000000000000652691580590792608000_00000000000000396787005773908585000_00000000000000252794773700073793000_00000000000000168185181730997322000_00000000000000116432170897011528000_00000000000000083579174882351063200_00000000000000061997161356891193000_00000000000000047365118409653712600_00000000000000037153457696647379000_00000000000000029835101859718838000_00000000000000024461444064865670600_00000000000000020427343654569444800_00000000000000017337104831711475700,
  01566642671644373360000000000000000_00024478791744441355000000000000000_00001147443363018709740000000000000_00000089644012733857922700000000000_00000009804813890786934430000000000_00000001378801951413136790000000000_00000000236981583420357018000000000_00000000048136882153484152300000000_00000000011282079775946981100000000_00000000002996800461710049820000000_00000000000889673158294303995000000_00000000000291922026289451452000000_00000000000104907499421904570000000_00000000000040977513185814426600000_00000000000017285409599398415200000_00000000000007830472448860360940000_00000000000003790906316549691370000_00000000000001952707293603888650000_00000000000001065908025322580640000_00000000000000614249301272570967000_00000000000000372329392095926968000_00000000000000236544740944407249000_00000000000000156949721954977655000_00000000000000108376497382547699000_00000000000000077610214398262501500_00000000000000057441544531623762700_00000000000000043794954931591721000_00000000000000034288921185678429000_00000000000000027488265776896434900_00000000000000022502960840502422400_00000000000000018766141157792205700_00000000000000015907702423974731100,
  01564200514786814350000000000000000_00024364493999792831200000000000000_00001138527756997880120000000000000_00000088670386057240038500000000000_00000009668110627509192540000000000_00000001355342609548171720000000000_00000000232223809819934273000000000_00000000047023511106994345500000000_00000000010986799875620040700000000_00000000002909275440738818090000000_00000000000860998734952164696000000_00000000000281633315325340941000000_00000000000100894885706764352000000_00000000000039287500818699977900000_00000000000016520995825487993500000_00000000000007460970231005943730000_00000000000003600864284308629790000_00000000000001849126655352251710000_00000000000001006305963064775490000_00000000000000578173372660848442000_00000000000000349441922510948068000_00000000000000221378951937362112000_00000000000000146490729357263981000_00000000000000100895525116926104000_00000000000000072079432584506287400_00000000000000053229004487080760800_00000000000000040499830533814572500_00000000000000031649546880404191600_00000000000000025329205137881733600_00000000000000020703653960888404600_00000000000000017241829830563748100_00000000000000014597531325454289600,
  01561769743287393550000000000000000_00024251082970299532100000000000000_00001129708834018554520000000000000_00000087710313198588310100000000000_00000009533729693888707340000000000_00000001332353527039020930000000000_00000000227575911393537458000000000_00000000045939235161965356900000000_00000000010700130803479229500000000_00000000002824567080337405760000000_00000000000833333398152061154000000_00000000000271737541549306104000000_00000000000097047511959876851600000_00000000000037672113564890530300000_00000000000015792599081274428200000_00000000000007109964098431479460000_00000000000003420888224121191340000_00000000000001751329595932114490000_00000000000000950199540988398540000_00000000000000544312074512416225000_00000000000000328019960993992107000_00000000000000207222561844449306000_00000000000000136752868654350607000_00000000000000093947106699916711600_00000000000000066953860200697893800_00000000000000049333132482345585700_00000000000000037458141904169002900_00000000000000029217330791146212300_00000000000000023342667322079201800_00000000000000019050413344524432000_00000000000000015842996418568329300_00000000000000013396542912446071500,
  01559350268955761320000000000000000_00024138549055041292600000000000000_00001120985250232663460000000000000_00000086763564258041777700000000000_00000009401624608552229070000000000_00000001309823860420303650000000000_00000000223035021219890004000000000_00000000044883207152323903500000000_00000000010421795874093075400000000_00000000002742576409305516970000000_00000000000806638668086051662000000_00000000000262218548163486067000000_00000000000093358092713843568900000_00000000000036127840547990777600000_00000000000015098419138542817500000_00000000000006776475798325955430000_00000000000003250416893223214110000_00000000000001658977384372772120000_00000000000000897374458315201822000_00000000000000512523785012035307000_00000000000000307966086216476632000_00000000000000194006054009141723000_00000000000000127684858769475349000_00000000000000087492263138411828300_00000000000000062203063802172900200_00000000000000045729592576183986600_00000000000000034650012004650104300_00000000000000026975730500951531700_00000000000000021514655288968230100_00000000000000017531221448702825700_00000000000000014559189157716410800_00000000000000012295543231203010500,
  01556942004554978900000000000000000_00024026882786340957000000000000000_00001112355684551512050000000000000_00000085829913930133793000000000000_00000009271749960278489360000000000_00000001287743048728641420000000000_00000000218598355727231717000000000_00000000043854607092030431800000000_00000000010151528109413829300000000_00000000002663208224839425300000000_00000000000780877644776369475000000_00000000000253060889658386115000000_00000000000089819684748496017400000_00000000000034651346115309594400000_00000000000014436750843719449600000_00000000000006459581543634649990000_00000000000003088921873647151730000_00000000000001571752027623723600000_00000000000000847630100717463093000_00000000000000482676285280978654000_00000000000000289189578481781634000_00000000000000181664849960097675000_00000000000000119239168332492012000_00000000000000081494940349126896300_00000000000000057798946852935902400_00000000000000042395956102702802000_00000000000000032057150013875389600_00000000000000024909544913528981500_00000000000000019832322992366918700_00000000000000016135061268922788800_00000000000000013380836026662452000_00000000000000011286119711229813500,
  01554544863788307190000000000000000_00023916074827511236600000000000000_00001103818838191644580000000000000_00000084909141398175551700000000000_00000009144061380160258700000000000_00000001266100805302004330000000000_00000000214263212023230781000000000_00000000042852641222922358500000000_00000000009889069869719823470000000_00000000002586370938049079180000000_00000000000756014938629010038000000_00000000000244249798448651674000000_00000000000086425670034955945700000_00000000000033239460597339178800000_00000000000013805978832020089300000_00000000000006158408832026624150000_00000000000002935905565322666580000_00000000000001489354947827630400000_00000000000000800778632724846817000_00000000000000454646113291804789000_00000000000000271605944177359474000_00000000000000170138948683380269000_00000000000000111371734562051240000_00000000000000075921784745235151800_00000000000000053715566710369710600_00000000000000039311549568555305700_00000000000000029662722786835379100_00000000000000023004804013080833000_00000000000000018283879597960382500_00000000000000014851832157411090100_00000000000000012299170006695897900_00000000000000010360574208560443400,
  01552158761286218510000000000000000_00023806115970646457100000000000000_00001095373434231132960000000000000_00000084001030231382858500000000000_00000009018515514573276010000000000_00000001244887109841366100000000000_00000000210026965318291610000000000_00000000041876541098702097900000000_00000000009634172499664376090000000_00000000002511976426255831990000000_00000000000732016604239979451000000_00000000000235771153169101547000000_00000000000083169739577840305700000_00000000000031889171580243251600000_00000000000013204572549883744700000_00000000000005872133459087131220000_00000000000002790899307017690620000_00000000000001411505747199940960000_00000000000000756644152421016776000_00000000000000428317963580214431000_00000000000000255136474930685936000_00000000000000159372592914271221000_00000000000000104041703698865379000_00000000000000070741936384989298300_00000000000000049928966195503945200_00000000000000036457314868589778000_00000000000000027451236873472989000_00000000000000021248667793656880800_00000000000000016858501756188476200_00000000000000013672272790722444100_00000000000000011306160743941478600_00000000000000009511861828723779230,
  01549783612593627010000000000000000_00023696997134458167000000000000000_00001087018217176018540000000000000_00000083105368284666732600000000000_00000008895069998926280480000000000_00000001224092200725506720000000000_00000000205887066438718485000000000_00000000040925562703592589400000000_00000000009386595988769172410000000_00000000002439939891753684500000000_00000000000708850077292584723000000_00000000000227611448543720406000000_00000000000080045878105819644200000_00000000000030597615661475940200000_00000000000012631081566894277800000_00000000000005599976713378737620000_00000000000002653461616663245410000_00000000000001337941054509518080000_00000000000000715061904019396274000_00000000000000403584129415184187000_00000000000000239707838871981146000_00000000000000149313960379000163000_00000000000000097211191304776615600_00000000000000065926838283644210500_00000000000000046417018568297577300_00000000000000033815680808592736200_00000000000000025408430218250966500_00000000000000019629333587197016600_00000000000000015546253246654733600_00000000000000012587890674230940000_00000000000000010394452061391576800_00000000000000008733535027221251520,
  01547419334157333430000000000000000_00023588709362153605500000000000000_00001078751952536645010000000000000_00000082221947601010995400000000000_00000008773683432167274450000000000_00000001203706567570147960000000000_00000000201841039426339385000000000_00000000039998985604247685000000000_00000000009146108645730966450000000_00000000002370179726732660880000000_00000000000686484114392632331000000_00000000000219757766745143340000000_00000000000077048349563634466300000_00000000000029362070660472344800000_00000000000012084131159586546900000_00000000000005341202741831311350000_00000000000002523176543184372210000_00000000000001268413447579397070000_00000000000000675877544228705224000_00000000000000380343984338205158000_00000000000000225251701605398876000_00000000000000139914878078437790000_00000000000000090845060876478506900_00000000000000061450060603135638800_00000000000000043159284824261282200_00000000000000031370445007819632900_00000000000000023521172736630585000_00000000000000018135951084841251400_00000000000000014338011368756614700_00000000000000011590897624135550700_00000000000000009557304816282966250_00000000000000008019692529229055390,
  01545065843313679800000000000000000_00023481243819356053400000000000000_00001070573426413627230000000000000_00000081350564316362423600000000000_00000008654315352022010800000000000_00000001183720944022939850000000000_00000000197886479221332578000000000_00000000039096112133566394100000000_00000000008912486785939834780000000_00000000002302617384077848170000000_00000000000664888735696418438000000_00000000000212197750166717405000000_00000000000074171683361393896400000_00000000000028179948258055706300000_00000000000011562418150649272500000_00000000000005095116074681564800000_00000000000002399652122497668250000_00000000000001202690446620685620000_00000000000000638946458616140704000_00000000000000358503500212997989000_00000000000000211704374673631964000_00000000000000131130557854665230000_00000000000000084910719346028366700_00000000000000057287138537831886600_00000000000000040136882317570825300_00000000000000029106665330988329400_00000000000000021777375031891587100_00000000000000016758544405901455200_00000000000000013225399506727077100_00000000000000010674150715828343900_00000000000000008788544642126655370_00000000000000007364932650270328450,
  01542723058276410160000000000000000_00023374591792066114600000000000000_00001062481445093208410000000000000_00000080491018566961412000000000000_00000008536926210941530640000000000_00000001164126300786135070000000000_00000000194021049425130671000000000_00000000038216266605118746500000000_00000000008685514431635147670000000_00000000002237177253771758480000000_00000000000644035170193969091000000_00000000000204919575533513634000000_00000000000071410661339535796300000_00000000000027048787039802179900000_00000000000011064706988078906400000_00000000000004861059299891473520000_00000000000002282518930836130990000_00000000000001140553573577898310000_00000000000000604133124451142529000_00000000000000337974799140018782000_00000000000000199006489469843917000_00000000000000122919351618372222000_00000000000000079377928153620781100_00000000000000053415422810028805700_00000000000000037332363797277574200_00000000000000027010560069932835800_00000000000000020165904577508191700_00000000000000015487940623589396700_00000000000000012200725346157315900_00000000000000009831098231514136830_00000000000000008082514154671213630_00000000000000006764310636119849360,
  01540390898124733030000000000000000_00023268744684663004200000000000000_00001054474834651765210000000000000_00000079643114399043364500000000000_00000008421477352736377740000000000_00000001144913838859094480000000000_00000000190242480140403235000000000_00000000037358794556947083900000000_00000000008464983024151981170000000_00000000002173786544641066090000000_00000000000623895803517147299000000_00000000000197911929282703757000000_00000000000068760305410227821900000_00000000000025966245920099561300000_00000000000010589826049812440600000_00000000000004638410877635289860000_00000000000002171428729027030170000_00000000000001081797473002830920000_00000000000000571310516767288422000_00000000000000318675736786783731000_00000000000000187102694706646176000_00000000000000115242524741207018000_00000000000000074218628682285697100_00000000000000049813941776408878300_00000000000000034729606017924904100_00000000000000025069416159724043300_00000000000000018676508746847999700_00000000000000014315704206621682100_00000000000000011256924263740240000_00000000000000009055730180190408580_00000000000000007434029237562620490_00000000000000006213299673515577350,
  01538069282791581930000000000000000_00023163694017944936600000000000000_00001046552440569226900000000000000_00000078806659680843234300000000000_00000008307930989875887150000000000_00000001126074982993061000000000000_00000000186548565885240022000000000_00000000036523062023560040100000000_00000000008250691147735948490000000_00000000002112375171201468430000000_00000000000604444128149010230000000_00000000000191163984147524006000000_00000000000066215865838244447000000_00000000000024930097925037504900000_00000000000010136664160276984700000_00000000000004426583086060417230000_00000000000002066053191780904870000_00000000000001026229090288388700000_00000000000000540359554615553521000_00000000000000300529514866786589000_00000000000000175941375695539550000_00000000000000108064046233377572000_00000000000000069406780939975674400_00000000000000046463274227079134700_00000000000000032313707154395610400_00000000000000023271504773261055800_00000000000000017299744123726853000_00000000000000013234076881576391700_00000000000000010387507452798956900_00000000000000008342532999829664740_00000000000000006838339056763545420_00000000000000005707755253640443780,
  01535758133052069800000000000000000_00023059431427207737100000000000000_00001038713127351181640000000000000_00000077981466016837752800000000000_00000008196250181431687570000000000_00000001107601375350920580000000000_00000000182937163578772507000000000_00000000035708454834987464600000000_00000000008042444264428446330000000_00000000002052875645366458620000000_00000000000585654695917196246000000_00000000000184665376882637799000000_00000000000063772810126474859400000_00000000000023938224313579996100000_00000000000009704167306144386690000_00000000000004225020090101253330000_00000000000001966082716451878550000_00000000000000973666903385409159000_00000000000000511168584700384062000_00000000000000283464320667724748000_00000000000000165474393822785632000_00000000000000101350394433790824000_00000000000000064918214462601551900_00000000000000043345432032632549100_00000000000000030070892313663479600_00000000000000021606003692579105700_00000000000000016026911574741626500_00000000000000012235922462726188300_00000000000000009586514384477451800_00000000000000007686448085157247570_00000000000000006291089483191224350_00000000000000005243882598061901210,
  01533457370512133780000000000000000_00022955948660360816600000000000000_00001030955778159449410000000000000_00000077167348664161940000000000000_00000008086398811645271440000000000_00000001089484869364940050000000000_00000000179406190595582227000000000_00000000034914377941813191600000000_00000000007840054459547157510000000_00000000001995222972797214450000000_00000000000567503072660169489000000_00000000000178406187072092914000000_00000000000061426812473209347600000_00000000000022988609017701812700000_00000000000009291335539374196660000_00000000000004033196125660166140000_00000000000001871225306103481210000_00000000000000923940204396141841000_00000000000000483632899792101187000_00000000000000267412991684957168000_00000000000000155656844729950965000_00000000000000095070377038553659200_00000000000000060730490492592847800_00000000000000040443751862486123300_00000000000000027988426493776088000_00000000000000020062925904826694600_00000000000000014849996607687968700_00000000000000011314676234354150100_00000000000000008848469238575945230_00000000000000007082833815063230000_00000000000000005788289630780321190_00000000000000004818206882110695780,
  01531166917597366500000000000000000_00022853237576079675300000000000000_00001023279294450906990000000000000_00000076364126451138468400000000000_00000007978341569100174710000000000_00000001071717523785731340000000000_00000000175953622886350326000000000_00000000034140254765148975600000000_00000000007643340197308384520000000_00000000001939354553681636800000000_00000000000549965794960869076000000_00000000000172376916964259394000000_00000000000059173743770225297300000_00000000000022079333383324795200000_00000000000008897220056371616620000_00000000000003850613791968742180000_00000000000001781205522062087330000_00000000000000876888427689219789000_00000000000000457654289496291590000_00000000000000252312703559576608000_00000000000000146446833820184053000_00000000000000089194964384423732500_00000000000000056822774562075587900_00000000000000037742795260033512600_00000000000000026054534393289835500_00000000000000018633053916418594400_00000000000000013761614580092421000_00000000000000010464298505578241800_00000000000000008168340969188763960_00000000000000006527430781680648260_00000000000000005326281242507494560_00000000000000004427546013758224720,
  01528886697542030410000000000000000_00022751290141994119600000000000000_00001015682595624357000000000000000_00000075571621697860364400000000000_00000007872043926479970850000000000_00000001054291596915940900000000000_00000000172577493162304176000000000_00000000033385526570557217400000000_00000000007452126086158467020000000_00000000001885210087740843200000000_00000000000533020328847719405000000_00000000000166568472281143316000000_00000000000057009662112455648200000_00000000000021208571194971942000000_00000000000008520920442782228200000_00000000000003676802445407855920000_00000000000001695763501463792170000_00000000000000832360521414113715000_00000000000000433140621134185717000_00000000000000238104679653097792000_00000000000000137805267815388602000_00000000000000083697134987414178400_00000000000000053175718678305205300_00000000000000035228256417366582800_00000000000000024258326522909665500_00000000000000017307879320623121100_00000000000000012754960358260108600_00000000000000009679231989748301850_00000000000000007541506698801439410_00000000000000006016329948734853770_00000000000000004901710680039531230_00000000000000004068985747108802560,
  01526616634378251400000000000000000_00022650098432911398600000000000000_00001008164618675238280000000000000_00000074789660138769378000000000000_00000007767472120893921390000000000_00000001037199541022402800000000000_00000000169275889141114048000000000_00000000032649651864972384500000000_00000000007266242653401214390000000_00000000001832731483271168070000000_00000000000516645030368075316000000_00000000000160972143952309565000000_00000000000054930803791679570300000_00000000000020374583968072289300000_00000000000008161582074095472610000_00000000000003511316688499284100000_00000000000001614654035601793020000_00000000000000790214359509528368000_00000000000000410005448648613283000_00000000000000224733920713378841000_00000000000000129695661185531412000_00000000000000078551732413795702100_00000000000000049771352372051299600_00000000000000032886877044886511700_00000000000000022589731115618819800_00000000000000016079547192112234100_00000000000000011823762060545494700_00000000000000008954362689791596850_00000000000000006963718160557570220_00000000000000005545943490130918530_00000000000000004511503293779919870_00000000000000003739856928837055170,
  01524356652925388550000000000000000_00022549654629073485400000000000000_00001000724317857981100000000000000_00000074018070847174138800000000000_00000007664593134752740330000000000_00000001020433996920723940000000000_00000000166046951851985776000000000_00000000031932105815711394000000000_00000000007085526128727012640000000_00000000001781862770038969820000000_00000000000500819107944017327000000_00000000000155579590726324093000000_00000000000052933574748233712200000_00000000000019575716493801591900000_00000000000007818393662837097440000_00000000000003353734948186695740000_00000000000001537645705161721510000_00000000000000750316191501207336000_00000000000000388167647598921049000_00000000000000212148953199776405000_00000000000000122083956360001271000_00000000000000073735332631728672600_00000000000000046592981927649986200_00000000000000030706367779423898300_00000000000000021039431372451617900_00000000000000014940804917084843500_00000000000000010962238549055224400_00000000000000008284983997703151480_00000000000000006431070932226027790_00000000000000005112978081090084780_00000000000000004152839969365697480_00000000000000003437714693433634520,
  01522106678779576340000000000000000_00022449951014447749300000000000000_00000993360664355815727000000000000_00000073256686161653938300000000000_00000007563374677177521400000000000_00000001003987788726490780000000000_00000000162888873997784381000000000_00000000031232379690701761200000000_00000000006909818236267092480000000_00000000001732550015854321890000000_00000000000485522586424993630000000_00000000000150382822615152189000000_00000000000051014542456208738700000_00000000000018810392622237029800000_00000000000007490584943699881350000_00000000000003203658137901898380000_00000000000001464520068693377600000_00000000000000712540127571292211000_00000000000000367551074446126528000_00000000000000200301594940395763000_00000000000000114938356712796253000_00000000000000069226121057179905300_00000000000000043625097166827243800_00000000000000028675335618869869800_00000000000000019598807618569839000_00000000000000013884955099735594600_00000000000000010165060361927234900_00000000000000007666763740918800200_00000000000000005939976227178247990_00000000000000004714410433647659850_00000000000000003823135664267892830_00000000000000003160319439122310700,
  01519866638303436280000000000000000_00022350979975050281400000000000000_00000986072645957848606000000000000_00000072505341614295646300000000000_00000007463785165925447640000000000_00000000987853918767499183000000000_00000000159799898372108922000000000_00000000030549980319093112800000000_00000000006738965994813417300000000_00000000001684741246657996750000000_00000000000470736272756141511000000_00000000000145374185129333181000000_00000000000049170428218975702100000_00000000000018077111270442310800000_00000000000007177424488494514280000_00000000000003060708398265080790000_00000000000001395070900910324770000_00000000000000676767656554783784000_00000000000000348084248457382534000_00000000000000189146736891290201000_00000000000000108229171388895554000_00000000000000065003778568077905800_00000000000000040853285207528379700_00000000000000026783216912108190500_00000000000000018259883978730365100_00000000000000012905812215328937600_00000000000000009427313803916995440_00000000000000007095713930767362190_00000000000000005487135027599776330_00000000000000004347464886143634140_00000000000000003520019764221386540_00000000000000002905619430913006600,
  01517636458615954440000000000000000_00022252733997301157400000000000000_00000978859266743225279000000000000_00000071763875860712878400000000000_00000007365793709816452550000000000_00000000972025562651612730000000000_00000000156778316329320458000000000_00000000029884429571452802800000000_00000000006572821525860810020000000_00000000001638386369964061160000000_00000000000456441723185225256000000_00000000000140546344264001920000000_00000000000047398099853185406000000_00000000000017374442642886153700000_00000000000006878217643300977790000_00000000000002924527911597197810000_00000000000001329103477635097750000_00000000000000642887194679747221000_00000000000000329700054677297469000_00000000000000178642139857192683000_00000000000000101928671108959667000_00000000000000061049375816244589100_00000000000000038264150664208973100_00000000000000025020215470526956400_00000000000000017015279212834334200_00000000000000011997662707176202500_00000000000000008744467936459251720_00000000000000006568162988751832540_00000000000000005069514363370754080_00000000000000004009592872619759830_00000000000000003241318103887103640_00000000000000002671734890581348390,
  01515416067582522090000000000000000_00022155205666410936500000000000000_00000971719546772204343000000000000_00000071032130611798090900000000000_00000007269370091645531300000000000_00000000956496064485050970000000000_00000000153822466305603293000000000_00000000029235263858779932800000000_00000000006411241869143327240000000_00000000001593437101507911620000000_00000000000442621211935013334000000_00000000000135892272197951336000000_00000000000045694564740606317200000_00000000000016701024652335516100000_00000000000006592304580667402090000_00000000000002794777785730205110000_00000000000001266433904418534030000_00000000000000610793663017587602000_00000000000000312335466523493204000_00000000000000168748245116383298000_00000000000000096010954153952012800_00000000000000057345275217885987900_00000000000000035845241797667639300_00000000000000023377245401848140600_00000000000000015858161381260696800_00000000000000011155228249607356600_00000000000000008112344229844214000_00000000000000006080730245220941410_00000000000000004684325556703520870_00000000000000003698454112916224260_00000000000000002985036509553015810_00000000000000002456943445527821850,
  01513205393805135970000000000000000_00022058387664797715300000000000000_00000964652521783971558000000000000_00000070309950567159779100000000000_00000007174484751565911190000000000_00000000941258932236097008000000000_00000000150930732389214594000000000_00000000028602033649604136700000000_00000000006254088805351546690000000_00000000001549846894956710600000000_00000000000429257701271597008000000_00000000000131405233669935722000000_00000000000044056963228317418800000_00000000000016055559530058145900000_00000000000006319058460140280980000_00000000000002671137002888068290000_00000000000001206888486058067840000_00000000000000580388091748827626000_00000000000000295931286665631245000_00000000000000159427997969120883000_00000000000000090451821790802492300_00000000000000053875040050674033600_00000000000000033584982160820990800_00000000000000021845878298692144400_00000000000000014782206036324596300_00000000000000010373631921767372300_00000000000000007527088659817383510_00000000000000005630302522210755790_00000000000000004329004267856094600_00000000000000003411899377859094940_00000000000000002749345733921619860_00000000000000002259666819570777440,
  01511004366612755480000000000000000_00021962272770534069600000000000000_00000957657242901027908000000000000_00000069597183350198413800000000000_00000007081108770928782340000000000_00000000926307833239394902000000000_00000000148101542938149304000000000_00000000027984303004466121600000000_00000000006101228685731395890000000_00000000001507570874545958470000000_00000000000416334812902636971000000_00000000000127078772998307981000000_00000000000042482562358856049900000_00000000000015436810614819969900000_00000000000006057883690819067810000_00000000000002553301429679733220000_00000000000001150303134422738500000_00000000000000551577249479114089000_00000000000000280431904941594069000_00000000000000150646683300169469000_00000000000000085228662455222211500_00000000000000050623350129023103900_00000000000000031472607322102795700_00000000000000020418294443420126200_00000000000000013781557660660244300_00000000000000009648367057921959940_00000000000000006985146048934576050_00000000000000005214012627997258810_00000000000000004001192191170466710_00000000000000003147954696357492410_00000000000000002532567664211786730_00000000000000002078458658860434100,
  01508812916051813650000000000000000_00021866853855823235600000000000000_00000950732776339990019000000000000_00000068893679444776155300000000000_00000006989213856565763870000000000_00000000911636589836181082000000000_00000000145333369243516113000000000_00000000027381649127106222500000000_00000000005952532268278452470000000_00000000001466565770512370660000000_00000000000403836800642825011000000_00000000000122906701711872587000000_00000000000040968749912941345000000_00000000000014843599310774158300000_00000000000005808214290011385110000_00000000000002440982884495847330000_00000000000001096522812163109640000_00000000000000524273295960375592000_00000000000000265785072152122370000_00000000000000142371772311765586000_00000000000000080320344058581965900_00000000000000047575923569350121500_00000000000000029498106280657289900_00000000000000019087237717577910500_00000000000000012850794095789269200_00000000000000008975268559086550320_00000000000000006483236469517563000_00000000000000004829219605329400280_00000000000000003698720263426301390_00000000000000002904806882588361740_00000000000000002333162695014653960_00000000000000001911993395350603940,
  01506630972876879070000000000000000_00021772123885503896900000000000000_00000943878203128645732000000000000_00000068199292133436741800000000000_00000006898772325500737910000000000_00000000897239175145961161000000000_00000000142624724236986183000000000_00000000026793661931715194700000000_00000000005807874560254321050000000_00000000001426789857199343260000000_00000000000391748524286974243000000_00000000000118883086761525358000000_00000000000039513028748355187100000_00000000000014274802204912939000000_00000000000005569512332424061460000_00000000000002333908258835165940000_00000000000001045401010043148050000_00000000000000498393456683809053000_00000000000000251941688656488695000_00000000000000134572779644303215000_00000000000000075707113832709916400_00000000000000044719444194173517100_00000000000000027652167217415636500_00000000000000017845973928893128000_00000000000000011984893724764130400_00000000000000008350486468340219690_00000000000000006018333540188612950_00000000000000004473490588521637250_00000000000000003419593258155937290_00000000000000002680790271829324240_00000000000000002149718166670967370_00000000000000001759056058708523420,
  01504458468541465950000000000000000_00021678075915582960200000000000000_00000937092618829111955000000000000_00000067513877437133267400000000000_00000006809757090078124700000000000_00000000883109708965304105000000000_00000000139974161240739593000000000_00000000026219943625628203500000000_00000000005667134666763770320000000_00000000001388202893717099480000000_00000000000380055424634113814000000_00000000000115002239283847242000000_00000000000038113011419468229000000_00000000000013729348335292712500000_00000000000005341266484661552690000_00000000000002231818689305382550000_00000000000000996799255779184141000_00000000000000473859717915296789000_00000000000000238855606767203287000_00000000000000127221130158430002000_00000000000000071370505169845685800_00000000000000042041494158100772800_00000000000000025926127253701062600_00000000000000016688252291427497500_00000000000000011179205191723528800_00000000000000007770461628284919640_00000000000000005587644461830712020_00000000000000004144584136679369600_00000000000000003161975650228902610_00000000000000002474374562990892820_00000000000000001980937778457971020_00000000000000001618532955251538120,
  01502295335188989480000000000000000_00021584703091795715300000000000000_00000930375133266946044000000000000_00000066837294056422832400000000000_00000006722141643495096840000000000_00000000869242453789580237000000000_00000000137380272758395052000000000_00000000025660108306868515400000000_00000000005530195645142826580000000_00000000001350766067045130040000000_00000000000368743499608771111000000_00000000000111258703889327471000000_00000000000036766415062751874400000_00000000000013206216601749935300000_00000000000005122990620118489760000_00000000000002134468777247626980000_00000000000000950586652409124580000_00000000000000450598540840513588000_00000000000000226483446011732904000_00000000000000120290034704493563000_00000000000000067293250955084533400_00000000000000039530491410303167000_00000000000000024311925914391820900_00000000000000015608269815319920900_00000000000000010429419458601592400_00000000000000007231903253880927910_00000000000000005188591651531061450_00000000000000003840434921404896690_00000000000000002924178644768733780_00000000000000002284153674575465210_00000000000000001825631893657859210_00000000000000001489403139536838570,
  01500141505643863910000000000000000_00021491998648192792900000000000000_00000923724870266066053000000000000_00000066169403314088281300000000000_00000006635900045725640940000000000_00000000855631810953618005000000000_00000000134841689305466567000000000_00000000025113781575971829400000000_00000000005396944364918993740000000_00000000001314441937469788180000000_00000000000357799281428285058000000_00000000000107647248449316731000000_00000000000035471056534421295600000_00000000000012704433311301633300000_00000000000004914222509648505920000_00000000000002041625853125047080000_00000000000000906639444343811942000_00000000000000428540593576896967000_00000000000000214784420394169170000_00000000000000113754374253665809000_00000000000000063459202925710326000_00000000000000037175631637188217200_00000000000000022802062016055982000_00000000000000014600638381721108700_00000000000000009731544015222153400_00000000000000006731768267442689330_00000000000000004818795844716208520_00000000000000003559139657472396140_00000000000000002704648273389627310_00000000000000002108835528722391910_00000000000000001682708660691050460_00000000000000001370730610655705970,
  01497996913402740550000000000000000_00021399955905753346300000000000000_00000917140967389339055000000000000_00000065510069099148430800000000000_00000006551006909824769980000000000_00000000842272316887397330000000000_00000000132357078277946484000000000_00000000024580600161545536100000000_00000000005267271373115232600000000_00000000001279194386254888490000000_00000000000347209814767516016000000_00000000000104162854357158231000000_00000000000034224847787112559600000_00000000000012223069850872197700000_00000000000004714522583668417030000_00000000000001953069282994627810000_00000000000000864840609372475931000_00000000000000407620499893307982000_00000000000000203720176850080463000_00000000000000107590591809897573000_00000000000000059853256626083691000_00000000000000034966834355846919100_00000000000000021389553722018150500_00000000000000013660354296152425500_00000000000000009081879073700242960_00000000000000006267242255016641650_00000000000000004476060546367167640_00000000000000003298944174247327080_00000000000000002501954468906514290_00000000000000001947232685250347500_00000000000000001551165880994621620_00000000000000001261657171150356130,
  01495861492625883170000000000000000_00021308568271023895400000000000000_00000910622575684700587000000000000_00000064859157812219342300000000000_00000006467437388601571090000000000_00000000829158639483034676000000000_00000000129925142857667747000000000_00000000024060211559039532000000000_00000000005141070764679307840000000_00000000001244988565447901190000000_00000000000336962635874708732000000_00000000000100800707240218144000000_00000000000033025791473211504900000_00000000000011761240480409087700000_00000000000004523472761616462970000_00000000000001868589814548543580000_00000000000000825079475006199208000_00000000000000387776603556052809000_00000000000000193254644143763272000_00000000000000101776591563384251000_00000000000000056461281558437594300_00000000000000032894692853650636900_00000000000000020067901526172517500_00000000000000012782770129744966300_00000000000000008476995591571891140_00000000000000005835721914777151130_00000000000000004158357721993846880_00000000000000003058231534131157100_00000000000000002314781037144543930_00000000000000001798253754238922330_00000000000000001430083560262532210_00000000000000001161395891828316360,
  01493735178128678300000000000000000_00021217829234782288900000000000000_00000904168859436671940000000000000_00000064216538312190305500000000000_00000006385167161650141270000000000_00000000816285574569447137000000000_00000000127544620953149510000000000_00000000023552273682226571600000000_00000000005018240057829624720000000_00000000001211790849728844130000000_00000000000327045752594531893000000_00000000000097556188100741143000000_00000000000031871976763125753000000_00000000000011318100239845888400000_00000000000004340675344926785620000_00000000000001787988960367663400000_00000000000000787251357647788148000_00000000000000368950747292382516000_00000000000000183353891509092448000_00000000000000096291644784703704700_00000000000000053270056159235294500_00000000000000030950427692263740400_00000000000000018831053945654276800_00000000000000011963568672743788500_00000000000000007913714980478385050_00000000000000005434798878553424970_00000000000000003863814628024785850_00000000000000002835511112102754260_00000000000000002141916451312098500_00000000000000001660895521754401490_00000000000000001318617085088493440_00000000000000001069225130640885660,
  01491617905373277890000000000000000_00021127732370726249500000000000000_00000897778995923145576000000000000_00000063582081864179276700000000000_00000006304172422727818580000000000_00000000803648042491209941000000000_00000000125214284174679376000000000_00000000023056454526910573800000000_00000000004898680074117751110000000_00000000001179568790213263310000000_00000000000317447625256467753000000_00000000000094424864864595515100000_00000000000030761575367426592100000_00000000000010892842963743418700000_00000000000004165751969910663780000_00000000000001711078416176059590000_00000000000000751257223173915080000_00000000000000351088065430024860000_00000000000000173985996383447982000_00000000000000091116301994449472500_00000000000000050267207257848255700_00000000000000029125843515472180100_00000000000000017673375719346475600_00000000000000011198738838401541500_00000000000000007389090368632151270_00000000000000005062244797217179070_00000000000000003590701689499058950_00000000000000002629408557563846380_00000000000000001982245400659617280_00000000000000001534235728869059700_00000000000000001215990972008951160_00000000000000000984483058259255672,
  01489509610460371820000000000000000_00021038271334185983000000000000000_00000891452175177312465000000000000_00000062955662088733557600000000000_00000006224429867470458440000000000_00000000791241084788244065000000000_00000000122932936842432748000000000_00000000022572431846400841300000000_00000000004782294823016475470000000_00000000001148291070124772970000000_00000000000308157148388764540000000_00000000000091402484318049412700000_00000000000029692837752386717100000_00000000000010484699397789703500000_00000000000003998342617149224180000_00000000000001637679512022183320000_00000000000000717003367606366684000_00000000000000334136789334084446000_00000000000000165120920629040025000_00000000000000086232310976236710800_00000000000000047441153699382908400_00000000000000027413288919742619100_00000000000000016589618324745915400_00000000000000010484553368031700300_00000000000000006900389295770735930_00000000000000004715997589489325560_00000000000000003337421340494827580_00000000000000002438656566233108060_00000000000000001834741030874281540_00000000000000001417426449193675660_00000000000000001121493140473235210_00000000000000000906562647061377643,
  01487410230121088120000000000000000_00020949439860860342200000000000000_00000885187599754608484000000000000_00000062337154912242509500000000000_00000006145916681434835490000000000_00000000779059860973088349000000000_00000000120699415026475003000000000_00000000022099892838308850900000000_00000000004668991390850508940000000_00000000001117927462256507380000000_00000000000299163633220098762000000_00000000000088484964413738674700000_00000000000028664089539005090400000_00000000000010092935411669002300000_00000000000003838104674203309370000_00000000000001567622694440392600000_00000000000000684401116634141879000_00000000000000318048064821106829000_00000000000000156730394677614675000_00000000000000081622540231600645400_00000000000000044781053836680676500_00000000000000025805619164448036700_00000000000000015574892640044625900_00000000000000009817548199632549740_00000000000000006445077728938488770_00000000000000004394148761829419920_00000000000000003102497749650750430_00000000000000002262086395822431510_00000000000000001698457818903332360_00000000000000001309688014780180410_00000000000000001034469665407514210_00000000000000000834907083968468051,
  01485319701709018270000000000000000_00020861231765576050700000000000000_00000878984484504560279000000000000_00000061726438518530071300000000000_00000006068610528458569910000000000_00000000767099645402623704000000000_00000000118512585617535664000000000_00000000021638533842242165600000000_00000000004558679833894817970000000_00000000001088448788144528940000000_00000000000290456790932929845000000_00000000000085668386927950587700000_00000000000027673728076143519900000_00000000000009716850303119987320000_00000000000003684712048634757830000_00000000000001500747037766335350000_00000000000000653366542827408648000_00000000000000302775780784544737000_00000000000000148787809073232664000_00000000000000077270907503717814800_00000000000000042276756617978857300_00000000000000024296161515340351300_00000000000000014624643591499086700_00000000000000009194503373210094990_00000000000000006020805296291774270_00000000000000004094931714514000040_00000000000000002884567359484745300_00000000000000002098620064716170850_00000000000000001572525029697882870_00000000000000001210303444492685210_00000000000000000954319968822588356_00000000000000000769005570973002153,
  01483237963192365550000000000000000_00020773640941069501700000000000000_00000872842056347414204000000000000_00000061123393301595798200000000000_00000005992489539328285140000000000_00000000755355824241226021000000000_00000000116371345427485405000000000_00000000021188060047987142100000000_00000000004451273075473092560000000_00000000001059826878879751430000000_00000000000282026716634271083000000_00000000000082948990452260097500000_00000000000026720219178902807600000_00000000000009355775188294795700000_00000000000003537854328510332010000_00000000000001436899782891846650000_00000000000000623820199458339890000_00000000000000288276408316574768000_00000000000000141268112923786260000_00000000000000073162313023225682600_00000000000000039918756016582965300_00000000000000022878683030225821800_00000000000000013734626638346392700_00000000000000008612425355795655030_00000000000000005625391644266356950_00000000000000003816710955844167930_00000000000000002682370174037460280_00000000000000001947263177902065750_00000000000000001456140706762404980_00000000000000001118613332824638420_00000000000000000880492413373610176_00000000000000000708389480308295802,
  01481164953146214050000000000000000_00020686661356790659400000000000000_00000866759554055434987000000000000_00000060527901819474048400000000000_00000005917532300747000940000000000_00000000743823892512429286000000000_00000000114274620318486740000000000_00000000020748185213788492100000000_00000000004346686806896030710000000_00000000001032034537488281280000000_00000000000273863874011253657000000_00000000000080323163703418216700000_00000000000025802094023841292000000_00000000000009009071473805165170000_00000000000003397235987725656210000_00000000000001375935901850021720000_00000000000000595686869912963663000_00000000000000274508849658454273000_00000000000000134147718805355092000_00000000000000069282577153850047600_00000000000000037698148567285989900_00000000000000021547360610003500100_00000000000000012900885958766418000_00000000000000008068530678240416610_00000000000000005256813830933304490_00000000000000003557972152699119290_00000000000000002494741734709219340_00000000000000001807098329009967120_00000000000000001348566152417223640_00000000000000001034011160688642020_00000000000000000812480263940710893_00000000000000000652628834048999797,
  01479100610744916180000000000000000_00020600287057728601900000000000000_00000860736228038763818000000000000_00000059939848749181833200000000000_00000005843717844592052410000000000_00000000732499451236281372000000000_00000000112221364359827659000000000_00000000020318631394349448300000000_00000000004244839392085968650000000_00000000001005045502813263110000000_00000000000265959080640429294000000_00000000000077787439136209462000000_00000000000024917946193086933500000_00000000000008676129406100244300000_00000000000003262575633642490230000_00000000000001317717686719448730000_00000000000000568895331742717451000_00000000000000261434296355625044000_00000000000000127404413694583271000_00000000000000065618382138214252200_00000000000000035606593791289110400_00000000000000020296753151351752300_00000000000000012119734210756652300_00000000000000007560230784237488100_00000000000000004913194675255769230_00000000000000003317312951416921750_00000000000000002320605729059405280_00000000000000001677279031536918800_00000000000000001249120857363966910_00000000000000000955938992951927626_00000000000000000749817986188941780_00000000000000000601329080525455967,
  01477044875754596660000000000000000_00020514512163258254700000000000000_00000854771340135728397000000000000_00000059359120842726700800000000000_00000005771025637455102540000000000_00000000721378204649672223000000000_00000000110210559011484328000000000_00000000019899128678191297700000000_00000000004145651775740925490000000_00000000000978834414834345877000000_00000000000258303493921246408000000_00000000000075338486844768671300000_00000000000024066428859817350000000_00000000000008356366694063937570000_00000000000003133605294679112100000_00000000000001262114361428666770000_00000000000000543378134464700364000_00000000000000249016096034789839000_00000000000000121017275533158345000_00000000000000062157217665230766400_00000000000000033636277307135504400_00000000000000019121775649476557100_00000000000000011387733751350672000_00000000000000007085117999729676010_00000000000000004592791988292377820_00000000000000003093434508278929770_00000000000000002158967181833081240_00000000000000001557024136207079670_00000000000000001157177842515914060_00000000000000000883883530460604613_00000000000000000692077853707390316_00000000000000000554128142304267221,
  01474997688525770680000000000000000_00020429330866007875100000000000000_00000848864163407500368000000000000_00000058785606884146856600000000000_00000005699435570456083170000000000_00000000710455957507007722000000000_00000000108241212333494375000000000_00000000019489414934025427000000000_00000000004049047394897373350000000_00000000000953376781363771444000000_00000000000250888597605548596000000_00000000000072973108738579940800000_00000000000023246252107981853800000_00000000000008049227200948719560000_00000000000003010069745631116830000_00000000000001209001715128166140000_00000000000000519071390275960625000_00000000000000237219627258419773000_00000000000000114966595055344861000_00000000000000058887329999985690000_00000000000000031779876439759679500_00000000000000018017675110545066500_00000000000000010701679206435523700_00000000000000006640952537961295190_00000000000000004293988618218667880_00000000000000002885133673738527330_00000000000000002008906181604873150_00000000000000001445612694962122220_00000000000000001072159379142987110_00000000000000000817372487013257792_00000000000000000638866837742232092_00000000000000000510693712652120567,
  01472958989986074380000000000000000_00020344737430746857400000000000000_00000843013981936998249000000000000_00000058219197647556521900000000000_00000005628927949323157300000000000_00000000699728612458692693000000000_00000000106312358220256284000000000_00000000019089235565804793100000000_00000000003954952093757005830000000_00000000000928648946060834607000000_00000000000243706188896287071000000_00000000000070688232980073962800000_00000000000022456180379516955200000_00000000000007754179701978595210000_00000000000002891725868629122710000_00000000000001158261755878052090000_00000000000000495914576899807017000_00000000000000226012181947790672000_00000000000000109233802534517771000_00000000000000055797674435132191200_00000000000000030030528153267521700_00000000000000016980008143789799700_00000000000000010058581291565946100_00000000000000006225650461973490130_00000000000000004015283246397336280_00000000000000002691295779003903150_00000000000000001869572100215637730_00000000000000001342379235329308150_00000000000000000993533056208909651_00000000000000000755971264230952496_00000000000000000589823755746399279_00000000000000000470720779377672190,
  01470928721633105470000000000000000_00020260726193293440100000000000000_00000837220090631936667000000000000_00000057659785856170316700000000000_00000005559483484731045070000000000_00000000689192167504973290000000000_00000000104423055658903050000000000_00000000018698343276134915600000000_00000000003863294041648470490000000_00000000000904628057709080199000000_00000000000236748366089913882000000_00000000000068480908671396909000000_00000000000021695030042663264100000_00000000000007470716704157102920000_00000000000002778342047761237560000_00000000000001109782383475206030000_00000000000000473850351831342358000_00000000000000215362854898875567000_00000000000000103801399127888611000_00000000000000052877870839613594400_00000000000000028381799145578492000_00000000000000016004620112848299000_00000000000000009455651791687950330_00000000000000005837272532369505530_00000000000000003755281876658885630_00000000000000002510887977690822760_00000000000000001740178265651519250_00000000000000001246709411895301060_00000000000000000920808166367904886_00000000000000000699279899545990566_00000000000000000544616656987352342_00000000000000000433929356753399855,
  01468906825527372200000000000000000_00020177291559441904500000000000000_00000831481795031925258000000000000_00000057107266142281201500000000000_00000005491083282890296530000000000_00000000678842713522772612000000000_00000000102572388010929617000000000_00000000018316497837737120400000000_00000000003774003654000469170000000_00000000000881292040703095131000000_00000000000230007516738134027000000_00000000000066348300778546211700000_00000000000020961667075328468700000_00000000000007198353325007711080000_00000000000002669697595502168260000_00000000000001063457080314732560000_00000000000000452824377295417028000_00000000000000205242439946406763000_00000000000000098652892520245702200_00000000000000050118162096136557600_00000000000000026827657954656266000_00000000000000015087625734760402700_00000000000000008890289614620161150_00000000000000005474013873730187720_00000000000000003512689964491335670_00000000000000002342953099034695910_00000000000000001619997052203570130_00000000000000001158036004346698230_00000000000000000853532384460423308_00000000000000000646930264613936027_00000000000000000502940425300448349_00000000000000000400062407870573674,
  01466893244285348570000000000000000_00020094428003908865200000000000000_00000825798411119523135000000000000_00000056561535008167244000000000000_00000005423708836380326660000000000_00000000668676431863233949000000000_00000000100759462316283722000000000_00000000017943465872668858600000000_00000000003687013516207824200000000_00000000000858619566694127382000000_00000000000223476306305845312000000_00000000000064287685281658070100000_00000000000020255004857759221400000_00000000000006936626227154357400000_00000000000002565582209198016490000_00000000000001019184619246986740000_00000000000000432785155273207435000_00000000000000195623332360320537000_00000000000000093772736587654420000_00000000000000047509375233298183500_00000000000000025362448936797027500_00000000000000014225391023236054500_00000000000000008360067839543893130_00000000000000005134194398178480050_00000000000000003286305137012909800_00000000000000002186603972618992240_00000000000000001508355354672910380_00000000000000001075835234044083610_00000000000000000791288714520252761_00000000000000000598583493359017269_00000000000000000464514580763505097_00000000000000000368883941289420057]

/-- `boys_longfac`, every entry multiplied by 10^18. -/
def boysLongfacN : List Nat := [
  886226925452758014,
  443113462726379007,
  664670194089568510,
  1661675485223921280,
  5815864198283724460,
  26171388892276760100,
  143942638907522180000,
  935627152898894173000,
  7017203646741706300000,
  59646230997304503500000,
  566639194474392784000000,
  5949711541981124230000000,
  68421682732782928600000000,
  855271034159786608000000000,
  11546158961157119200000000000,
  167419304936778228000000000000,
  2594999226520062540000000000000,
  42817487237581031900000000000000,
  749306026657668059000000000000000,
  13862161493166859100000000000000000,
  270312149116753752000000000000000000,
  5541399056893451920000000000000000000,
  119140079723209216000000000000000000000,
  2680651793772207370000000000000000000000,
  62995317153646873100000000000000000000000,
  1543385270264348390000000000000000000000000,
  39356324391740884000000000000000000000000000,
  1042942596381133430000000000000000000000000000,
  28680921400481169200000000000000000000000000000,
  817406259913713322000000000000000000000000000000,
  24113484667454543000000000000000000000000000000000,
  735461282357363562000000000000000000000000000000000]

end Simint
