import Verif.Model.BigInt

/-! # The generated cache tables checked in

`test_results/binary32_generated_cache.txt` and `test_results/binary64_generated_cache.txt`, line by line.  A line is the
number whose digits to base 256 are its bytes (so that the file can be compared with the source by converting each
number to bytes); `text` turns it back into characters. -/

namespace Grisu.ResultFiles

/-- The digits of `n` to base 256, the first `count`, as characters: used to write down the text of
test_results/binary64_generated_cache.txt. -/
def bytes (n : Nat) : Nat → List Char
  | 0 => []
  | count + 1 => Char.ofNat (n / 256 ^ count % 256) :: bytes n count

/-- The lines of a file, given by length and contents, joined by newlines: test_results/binary32_generated_cache.txt 1-79 and
test_results/binary64_generated_cache.txt.  The file does not end in a newline. -/
def text : List (Nat × Nat) → List Char
  | [] => []
  | [(len, n)] => bytes n len
  | (len, n) :: rest => bytes n len ++ '\n' :: text rest

/-- test_results/binary32_generated_cache.txt, lines 1-79. -/
def binary32_generated_cache : List (Nat × Nat) := [
  (42, 0x73746174696320636f6e737465787072207374643a3a75696e7436345f742063616368655b5d203d207b),
  (20, 0x093078613234323566663735653134666333322c),
  (20, 0x093078636164326637663533353961336233662c),
  (20, 0x093078666438376235663238333030636130652c),
  (20, 0x093078396537346431623739316530376534392c),
  (20, 0x093078633631323036323537363538396464622c),
  (20, 0x093078663739363837616564336565633535322c),
  (20, 0x093078396162653134636434343735336235332c),
  (20, 0x093078633136643961303039353932386132382c),
  (20, 0x093078663163393030383062616637326362322c),
  (20, 0x093078393731646130353037346461376265662c),
  (20, 0x093078626365353038363439323131316165622c),
  (20, 0x093078656331653461376462363935363161362c),
  (20, 0x093078393339326565386539323164356430382c),
  (20, 0x093078623837376161333233366134623434612c),
  (20, 0x093078653639353934626563343464653135632c),
  (20, 0x093078393031643763663733616230616364612c),
  (20, 0x093078623432346463333530393563643831302c),
  (20, 0x093078653132653133343234626234306531342c),
  (20, 0x093078386362636363303936663530383863632c),
  (20, 0x093078616665626666306263623234616166662c),
  (20, 0x093078646265366665636562646564643562662c),
  (20, 0x093078383937303566343133366234613539382c),
  (20, 0x093078616263633737313138343631636566642c),
  (20, 0x093078643662663934643565353761343262642c),
  (20, 0x093078383633376264303561663663363962362c),
  (20, 0x093078613763356163343731623437383432342c),
  (20, 0x093078643162373137353865323139363532632c),
  (20, 0x093078383331323665393738643466646633632c),
  (20, 0x093078613364373061336437306133643730622c),
  (20, 0x093078636363636363636363636363636363642c),
  (20, 0x093078383030303030303030303030303030302c),
  (20, 0x093078613030303030303030303030303030302c),
  (20, 0x093078633830303030303030303030303030302c),
  (20, 0x093078666130303030303030303030303030302c),
  (20, 0x093078396334303030303030303030303030302c),
  (20, 0x093078633335303030303030303030303030302c),
  (20, 0x093078663432343030303030303030303030302c),
  (20, 0x093078393839363830303030303030303030302c),
  (20, 0x093078626562633230303030303030303030302c),
  (20, 0x093078656536623238303030303030303030302c),
  (20, 0x093078393530326639303030303030303030302c),
  (20, 0x093078626134336237343030303030303030302c),
  (20, 0x093078653864346135313030303030303030302c),
  (20, 0x093078393138346537326130303030303030302c),
  (20, 0x093078623565363230663438303030303030302c),
  (20, 0x093078653335666139333161303030303030302c),
  (20, 0x093078386531626339626630343030303030302c),
  (20, 0x093078623161326263326563353030303030302c),
  (20, 0x093078646530623662336137363430303030302c),
  (20, 0x093078386163373233303438396538303030302c),
  (20, 0x093078616437386562633561633632303030302c),
  (20, 0x093078643864373236623731373761383030302c),
  (20, 0x093078383738363738333236656163393030302c),
  (20, 0x093078613936383136336630613537623430302c),
  (20, 0x093078643363323162636563636564613130302c),
  (20, 0x093078383435393531363134303134383461302c),
  (20, 0x093078613536666135623939303139613563382c),
  (20, 0x093078636563623866323766343230306633612c),
  (20, 0x093078383133663339373866383934303938342c),
  (20, 0x093078613138663037643733366239306265352c),
  (20, 0x093078633966326339636430343637346564652c),
  (20, 0x093078666336663763343034353831323239362c),
  (20, 0x093078396463356164613832623730623539642c),
  (20, 0x093078633533373139313233363463653330352c),
  (20, 0x093078663638346466353663336530316263362c),
  (20, 0x093078396131333062393633613663313135632c),
  (20, 0x093078633039376365376263393037313562332c),
  (20, 0x093078663062646332316162623438646232302c),
  (20, 0x093078393637363939353062353064383866342c),
  (20, 0x093078626331343366613465323530656233312c),
  (20, 0x093078656231393466386531616535323566642c),
  (20, 0x093078393265666431623864306366333762652c),
  (20, 0x093078623761626336323730353033303561642c),
  (20, 0x093078653539366237623063363433633731392c),
  (20, 0x093078386637653332636537626561356336662c),
  (20, 0x093078623335646266383231616534663338622c),
  (19, 0x09307865303335326636326131396533303665),
  (2, 0x7d3b)]

/-- test_results/binary64_generated_cache.txt, lines 1-124. -/
def binary64_generated_cache_0 : List (Nat × Nat) := [
  (36, 0x73746174696320636f6e7374657870722075696e743132382063616368655b5d203d207b),
  (44, 0x097b203078633739353833306437353033386331642c20307864353964663562396566366132343138207d2c),
  (44, 0x097b203078663937616533643064323434366632352c20307834623035373332383662343461643165207d2c),
  (44, 0x097b203078396265636365363238333661633537372c20307834656533363766393433306165633333207d2c),
  (44, 0x097b203078633265383031666232343435373664352c20307832323963343166373933636461373430207d2c),
  (44, 0x097b203078663361323032373965643536643438612c20307836623433353237353738633131313130207d2c),
  (44, 0x097b203078393834353431386333343536343464362c20307838333061313338393662373861616161207d2c),
  (44, 0x097b203078626535363931656634313662643630632c20307832336363393836626336353664353534207d2c),
  (44, 0x097b203078656465633336366231316336636238662c20307832636266626538366237656338616139207d2c),
  (44, 0x097b203078393462336132303265623163336633392c20307837626637643731343332663364366161207d2c),
  (44, 0x097b203078623965303861383361356533346630372c20307864616635636364393366623063633534207d2c),
  (44, 0x097b203078653835386164323438663563323263392c20307864316233343030663866396366663639207d2c),
  (44, 0x097b203078393133373663333664393939393562652c20307832333130303830396239633231666132207d2c),
  (44, 0x097b203078623538353437343438666666666232642c20307861626434306130633238333261373862207d2c),
  (44, 0x097b203078653265363939313562336666663966392c20307831366339306338663332336635313664207d2c),
  (44, 0x097b203078386464303166616439303766666333622c20307861653364613764393766363739326534207d2c),
  (44, 0x097b203078623134343237393866343966666234612c20307839396364313163666466343137373964207d2c),
  (44, 0x097b203078646439353331376633316337666131642c20307834303430353634336437313164353834207d2c),
  (44, 0x097b203078386137643365656637663163666335322c20307834383238333565613636366232353733207d2c),
  (44, 0x097b203078616431633865616235656534336236362c20307864613332343336353030303565656430207d2c),
  (44, 0x097b203078643836336232353633363964346134302c20307839306265643433653430303736613833207d2c),
  (44, 0x097b203078383733653466373565323232346536382c20307835613737343461366538303461323932207d2c),
  (44, 0x097b203078613930646533353335616161653230322c20307837313135313564306132303563623337207d2c),
  (44, 0x097b203078643335313563323833313535396138332c20307830643561356234346361383733653034207d2c),
  (44, 0x097b203078383431326439393931656435383039312c20307865383538373930616665393438366333207d2c),
  (44, 0x097b203078613531373866666636363861653062362c20307836323665393734646265333961383733207d2c),
  (44, 0x097b203078636535643733666634303264393865332c20307866623061336432313264633831323930207d2c),
  (44, 0x097b203078383066613638376638383163376638652c20307837636536363633346263396430623961207d2c),
  (44, 0x097b203078613133393032396636613233396637322c20307831633166666663316562633434653831207d2c),
  (44, 0x097b203078633938373433343734346163383734652c20307861333237666662323636623536323231207d2c),
  (44, 0x097b203078666265393134313931356437613932322c20307834626631666639663030363262616139207d2c),
  (44, 0x097b203078396437316163386661646136633962352c20307836663737336663333630336462346161207d2c),
  (44, 0x097b203078633463653137623339393130376332322c20307863623535306662343338346432316434207d2c),
  (44, 0x097b203078663630313964613037663534396232622c20307837653261353361313436363036613439207d2c),
  (44, 0x097b203078393963313032383434663934653066622c20307832656461373434346362666334323665207d2c),
  (44, 0x097b203078633033313433323536333761313933392c20307866613931313135356665666235333039207d2c),
  (44, 0x097b203078663033643933656562633538396638382c20307837393335353561623765626132376362207d2c),
  (44, 0x097b203078393632363763373533356237363362352c20307834626331353538623266333435386466207d2c),
  (44, 0x097b203078626262303162393238333235336361322c20307839656231616165646662303136663137207d2c),
  (44, 0x097b203078656139633232373732336565386263622c20307834363565313561393739633163616464207d2c),
  (44, 0x097b203078393261313935386137363735313735662c20307830626661636438396563313931656361207d2c),
  (44, 0x097b203078623734396661656431343132356433362c20307863656639383065633637316636363763207d2c),
  (44, 0x097b203078653531633739613835393136663438342c20307838326237653132373830653734303162207d2c),
  (44, 0x097b203078386633316363303933376165353864322c20307864316232656362386230393038383131207d2c),
  (44, 0x097b203078623266653366306238353939656630372c20307838363166613765366463623461613136207d2c),
  (44, 0x097b203078646662646365636536373030366163392c20307836376137393165303933653164343962207d2c),
  (44, 0x097b203078386264366131343130303630343262642c20307865306338626232633563366432346531207d2c),
  (44, 0x097b203078616563633439393134303738353336642c20307835386661653966373733383836653139207d2c),
  (44, 0x097b203078646137663562663539303936363834382c20307861663339613437353530366138393966207d2c),
  (44, 0x097b203078383838663939373937613565303132642c20307836643834303663393532343239363034207d2c),
  (44, 0x097b203078616162333766643764386635383137382c20307863386535303837626136643333623834207d2c),
  (44, 0x097b203078643536303566636463663332653164362c20307866623165346139613930383830613635207d2c),
  (44, 0x097b203078383535633362653061313766636432362c20307835636632656561303961353530363830207d2c),
  (44, 0x097b203078613662333461643863396466633036662c20307866343266616134386330656134383166207d2c),
  (44, 0x097b203078643036303164386566633537623038622c20307866313362393464616631323464613237207d2c),
  (44, 0x097b203078383233633132373935646236636535372c20307837366335336430386436623730383539207d2c),
  (44, 0x097b203078613263623137313762353234383165642c20307835343736386334623063363463613666207d2c),
  (44, 0x097b203078636237646463646461323664613236382c20307861393934326635646366376466643061207d2c),
  (44, 0x097b203078666535643534313530623039306230322c20307864336639336233353433356437633464207d2c),
  (44, 0x097b203078396566613534386432366535613665312c20307863343762633530313461316136646230207d2c),
  (44, 0x097b203078633662386539623037303966313039612c20307833353961623634313963613130393163207d2c),
  (44, 0x097b203078663836373234316338636336643463302c20307863333031363364323033633934623633207d2c),
  (44, 0x097b203078396234303736393164376663343466382c20307837396530646536333432356463663165207d2c),
  (44, 0x097b203078633231303934333634646662353633362c20307839383539313566633132663534326535207d2c),
  (44, 0x097b203078663239346239343365313761326263342c20307833653666356237623137623239333965207d2c),
  (44, 0x097b203078393739636633636136636563356235612c20307861373035393932636565636639633433207d2c),
  (44, 0x097b203078626438343330626430383237373233312c20307835306336666637383261383338333534207d2c),
  (44, 0x097b203078656365353363656334613331346562642c20307861346638626635363335323436343239207d2c),
  (44, 0x097b203078393430663436313361653565643133362c20307838373162373739356531333662653961207d2c),
  (44, 0x097b203078623931333137393839396636383538342c20307832386532353537623539383436653430207d2c),
  (44, 0x097b203078653735376464376563303734323665352c20307833333161656164613266653538396430207d2c),
  (44, 0x097b203078393039366561366633383438393834662c20307833666630643263383564656637363232207d2c),
  (44, 0x097b203078623462636135306230363561626536332c20307830666564303737613735366235336161207d2c),
  (44, 0x097b203078653165626365346463376631366466622c20307864336538343935393132633632383935207d2c),
  (44, 0x097b203078386433333630663039636636653462642c20307836343731326464376162626264393564207d2c),
  (44, 0x097b203078623038303339326363343334396465632c20307862643864373934643936616163666234207d2c),
  (44, 0x097b203078646361303437373766353431633536372c20307865636630643761306663353538336131207d2c),
  (44, 0x097b203078383965343263616166393439316236302c20307866343136383663343964623537323435207d2c),
  (44, 0x097b203078616335643337643562373962363233392c20307833313163323837356335323263656436207d2c),
  (44, 0x097b203078643737343835636232353832336163372c20307837643633333239333336366238323863207d2c),
  (44, 0x097b203078383661386433396566373731363462632c20307861653564666639633032303333313938207d2c),
  (44, 0x097b203078613835333038383662353464626465622c20307864396635376638333032383366646664207d2c),
  (44, 0x097b203078643236376361613836326131326436362c20307864303732646636336333323466643763207d2c),
  (44, 0x097b203078383338306465613933646134626336302c20307834323437636239653539663731653665207d2c),
  (44, 0x097b203078613436313136353338643064656237382c20307835326439626538356630373465363039207d2c),
  (44, 0x097b203078636437393562653837303531363635362c20307836373930326532373663393231663863207d2c),
  (44, 0x097b203078383036626439373134363332646666362c20307830306261316364386133646235336237207d2c),
  (44, 0x097b203078613038366366636439376266393766332c20307838306538613430656363643232386135207d2c),
  (44, 0x097b203078633861383833633066646166376466302c20307836313232636431323830303662326365207d2c),
  (44, 0x097b203078666164326134623133643162356436632c20307837393662383035373230303835663832207d2c),
  (44, 0x097b203078396363336136656563363331316136332c20307863626533333033363734303533626231207d2c),
  (44, 0x097b203078633366343930616137376264363066632c20307862656462666334343131303638613964207d2c),
  (44, 0x097b203078663466316234643531356163623933622c20307865653932666235353135343832643435207d2c),
  (44, 0x097b203078393931373131303532643862663363352c20307837353162646431353264346431633462207d2c),
  (44, 0x097b203078626635636435343637386565663062362c20307864323632643435613738613036333565207d2c),
  (44, 0x097b203078656633343061393831373261616365342c20307838366662383937313136633837633335207d2c),
  (44, 0x097b203078393538303836396630653761616330652c20307864343564333565366165336434646131207d2c),
  (44, 0x097b203078626165306138343664323139353731322c20307838393734383336303539636361313061207d2c),
  (44, 0x097b203078653939386432353838363966616364372c20307832626431613433383730336663393463207d2c),
  (44, 0x097b203078393166663833373735343233636330362c20307837623633303661333436323764646430207d2c),
  (44, 0x097b203078623637663634353532393263626630382c20307831613362633834633137623164353433207d2c),
  (44, 0x097b203078653431663364366137333737656563612c20307832306361626135663164396534613934207d2c),
  (44, 0x097b203078386539333836363238383261663533652c20307835343765623437623732383265653964207d2c),
  (44, 0x097b203078623233383637666232613335623238642c20307865393965363139613466323361613434207d2c),
  (44, 0x097b203078646563363831663966346333316633312c20307836343035666130306532656339346435207d2c),
  (44, 0x097b203078386233633131336333386639663337652c20307864653833626334303864643364643035207d2c),
  (44, 0x097b203078616530623135386234373338373035652c20307839363234616235306231343864343436207d2c),
  (44, 0x097b203078643938646461656531393036386337362c20307833626164643632346464396230393538207d2c),
  (44, 0x097b203078383766386138643463666134313763392c20307865353463613564373061383065356437207d2c),
  (44, 0x097b203078613966366433306130333864316462632c20307835653966636634636364323131663464207d2c),
  (44, 0x097b203078643437343837636338343730363532622c20307837363437633332303030363936373230207d2c),
  (44, 0x097b203078383463386434646664326336336633622c20307832396563643966343030343165303734207d2c),
  (44, 0x097b203078613566623061313763373737636630392c20307866343638313037313030353235383931207d2c),
  (44, 0x097b203078636637396363396462393535633263632c20307837313832313438643430363665656235207d2c),
  (44, 0x097b203078383161633166653239336435393962662c20307863366631346364383438343035353331207d2c),
  (44, 0x097b203078613231373237646233386362303032662c20307862386164613030653561353036613764207d2c),
  (44, 0x097b203078636139636631643230366664633033622c20307861366439303831316630653438353164207d2c),
  (44, 0x097b203078666434343265343638386264333034612c20307839303866346131363664316461363634207d2c),
  (44, 0x097b203078396534613963656331353736336532652c20307839613539386534653034333238376666207d2c),
  (44, 0x097b203078633564643434323731616433636462612c20307834306566663165313835336632396665207d2c),
  (44, 0x097b203078663735343935333065313838633132382c20307864313262656535396536386566343764207d2c),
  (44, 0x097b203078396139346464336538636635373862392c20307838326262373466383330313935386366207d2c),
  (44, 0x097b203078633133613134386533303332643665372c20307865333661353233363363316661663032207d2c),
  (44, 0x097b203078663138383939623162633366386361312c20307864633434653663336362323739616332207d2c)]

/-- test_results/binary64_generated_cache.txt, lines 125-248. -/
def binary64_generated_cache_1 : List (Nat × Nat) := [
  (44, 0x097b203078393666353630306631356137623765352c20307832396162313033613565663863306261207d2c),
  (44, 0x097b203078626362326238313264623131613564652c20307837343135643434386636623666306538207d2c),
  (44, 0x097b203078656264663636313739316436306635362c20307831313162343935623334363461643232207d2c),
  (44, 0x097b203078393336623966636562623235633939352c20307863616231306464393030626565633335207d2c),
  (44, 0x097b203078623834363837633236396566336266622c20307833643564353134663430656561373433207d2c),
  (44, 0x097b203078653635383239623330343662306166612c20307830636234613561333131326135313133207d2c),
  (44, 0x097b203078386666373161306665326332653664632c20307834376630653738356561626137326163207d2c),
  (44, 0x097b203078623366346530393364623733613039332c20307835396564323136373635363930663537207d2c),
  (44, 0x097b203078653066323138623864323530383862382c20307833303638363963313365633335333264207d2c),
  (44, 0x097b203078386339373466373338333732353537332c20307831653431343231386337336131336663207d2c),
  (44, 0x097b203078616662643233353036343465656163662c20307865356431393239656639303839386662207d2c),
  (44, 0x097b203078646261633663323437643632613538332c20307864663435663734366237346162663361207d2c),
  (44, 0x097b203078383934626333393663653564613737322c20307836623862626138633332386562373834207d2c),
  (44, 0x097b203078616239656234376338316635313134662c20307830363665613932663366333236353635207d2c),
  (44, 0x097b203078643638363631396261323732353561322c20307863383061353337623065666566656265207d2c),
  (44, 0x097b203078383631336664303134353837373538352c20307862643036373432636539356635663337207d2c),
  (44, 0x097b203078613739386663343139366539353265372c20307832633438313133383233623733373035207d2c),
  (44, 0x097b203078643137663362353166636133613761302c20307866373561313538363263613530346336207d2c),
  (44, 0x097b203078383265663835313333646536343863342c20307839613938346437336462653732326663207d2c),
  (44, 0x097b203078613361623636353830643566646166352c20307863313365363064306432653065626262207d2c),
  (44, 0x097b203078636339363366656531306237643162332c20307833313864663930353037393932366139207d2c),
  (44, 0x097b203078666662626366653939346535633631662c20307866646631373734363439376637303533207d2c),
  (44, 0x097b203078396664353631663166643066396264332c20307866656236656138626564656661363334207d2c),
  (44, 0x097b203078633763616261366537633533383263382c20307866653634613532656539366238666331207d2c),
  (44, 0x097b203078663962643639306131623638363337622c20307833646664636537616133633637336231207d2c),
  (44, 0x097b203078396331363631613635313231336532642c20307830366265613130636136356330383466207d2c),
  (44, 0x097b203078633331626661306665353639386462382c20307834383665343934666366663330613633207d2c),
  (44, 0x097b203078663365326638393364656333663132362c20307835613839646261336333656663636662207d2c),
  (44, 0x097b203078393836646462356336623361373662372c20307866383936323934363561373565303164207d2c),
  (44, 0x097b203078626538393532333338363039313436352c20307866366262623339376631313335383234207d2c),
  (44, 0x097b203078656532626136633036373862353937662c20307837343661613037646564353832653264207d2c),
  (44, 0x097b203078393464623438333834306237313765662c20307861386332613434656234353731636464207d2c),
  (44, 0x097b203078626131323161343635306534646465622c20307839326633346436323631366365343134207d2c),
  (44, 0x097b203078653839366130643765353165313536362c20307837376230323062616639633831643138207d2c),
  (44, 0x097b203078393135653234383665663332636436302c20307830616365313437346463316431323266207d2c),
  (44, 0x097b203078623562356164613861616666383062382c20307830643831393939323133323435366262207d2c),
  (44, 0x097b203078653332333139313264356266363065362c20307831306531666666363937656436633661207d2c),
  (44, 0x097b203078386466356566616263353937396338662c20307863613864336666613165663436336332207d2c),
  (44, 0x097b203078623137333662393662366664383362332c20307862643330386666386136623137636233207d2c),
  (44, 0x097b203078646464303436376336346263653461302c20307861633763623366366430356464626466207d2c),
  (44, 0x097b203078386161323263306462656636306565342c20307836626364663037613432336161393663207d2c),
  (44, 0x097b203078616434616237313132656233393239642c20307838366331366339386432633935336337207d2c),
  (44, 0x097b203078643839643634643537613630373734342c20307865383731633762663037376261386238207d2c),
  (44, 0x097b203078383736323566303536633763346138622c20307831313437316364373634616434393733207d2c),
  (44, 0x097b203078613933616636633663373962356432642c20307864353938653430643364643839626430207d2c),
  (44, 0x097b203078643338396234373837393832333437392c20307834616666316431303864346563326334207d2c),
  (44, 0x097b203078383433363130636234626631363063622c20307863656466373232613538353133396262207d2c),
  (44, 0x097b203078613534333934666531656564623866652c20307863323937346562346565363538383239207d2c),
  (44, 0x097b203078636539343761336461366139323733652c20307837333364323236323239666565613333207d2c),
  (44, 0x097b203078383131636363363638383239623838372c20307830383036333537643561336635323630207d2c),
  (44, 0x097b203078613136336666383032613334323661382c20307863613037633264636230636632366638207d2c),
  (44, 0x097b203078633962636666363033346331333035322c20307866633839623339336464303266306236207d2c),
  (44, 0x097b203078666332633366333834316631376336372c20307862626163323037386434343361636533207d2c),
  (44, 0x097b203078396439626137383332393336656463302c20307864353462393434623834616134633065207d2c),
  (44, 0x097b203078633530323931363366333834613933312c20307830613965373935653635643464663132207d2c),
  (44, 0x097b203078663634333335626366303635643337642c20307834643436313762356666346131366436207d2c),
  (44, 0x097b203078393965613031393631363366613432652c20307835303462636564316266386534653436207d2c),
  (44, 0x097b203078633036343831666239626366386433392c20307865343565633238363266373165316437207d2c),
  (44, 0x097b203078663037646132376138326333373038382c20307835643736373332376262346535613464207d2c),
  (44, 0x097b203078393634653835386339316261323635352c20307833613661303766386435313066383730207d2c),
  (44, 0x097b203078626265323236656662363238616665612c20307838393034383966373061353533363863207d2c),
  (44, 0x097b203078656164616230616261336232646265352c20307832623435616337346363656138343266207d2c),
  (44, 0x097b203078393263386165366234363466633936662c20307833623062386263393030313239323965207d2c),
  (44, 0x097b203078623737616461303631376533626263622c20307830396365366562623430313733373435207d2c),
  (44, 0x097b203078653535393930383739646463616162642c20307863633432306136613130316430353136207d2c),
  (44, 0x097b203078386635376661353463326139656162362c20307839666139343638323461313232333265207d2c),
  (44, 0x097b203078623332646638653966333534363536342c20307834373933393832326463393661626661207d2c),
  (44, 0x097b203078646666393737323437303239376562642c20307835393738376532623933626335366638207d2c),
  (44, 0x097b203078386266626561373663363139656633362c20307835376562346564623363353562363562207d2c),
  (44, 0x097b203078616566616535313437376130366230332c20307865646536323239323062366232336632207d2c),
  (44, 0x097b203078646162393965353939353838383563342c20307865393566616233363865343565636565207d2c),
  (44, 0x097b203078383862343032663766643735353339622c20307831316462636230323138656262343135207d2c),
  (44, 0x097b203078616165313033623566636432613838312c20307864363532626463323966323661313161207d2c),
  (44, 0x097b203078643539393434613337633037353261322c20307834626537366433333436663034393630207d2c),
  (44, 0x097b203078383537666361653632643834393361352c20307836663730613434303063353632646463207d2c),
  (44, 0x097b203078613664666264396662386535623838652c20307863623463636435303066366262393533207d2c),
  (44, 0x097b203078643039376164303761373166323662322c20307837653230303061343133343661376138207d2c),
  (44, 0x097b203078383235656363323463383733373832662c20307838656434303036363863306332386339207d2c),
  (44, 0x097b203078613266363766326466613930353633622c20307837323839303038303266306633326662207d2c),
  (44, 0x097b203078636262343165663937393334366263612c20307834663262343061303361643266666261207d2c),
  (44, 0x097b203078666561313236623764373831383662632c20307865326636313063383439383762666139207d2c),
  (44, 0x097b203078396632346238333265366230663433362c20307830646439636137643264663464376361207d2c),
  (44, 0x097b203078633665646536336661303564333134332c20307839313530336431633739373230646263207d2c),
  (44, 0x097b203078663861393566636638383734376439342c20307837356134346336333937636539313262207d2c),
  (44, 0x097b203078396236396462653162353438636537632c20307863393836616662653365653131616262207d2c),
  (44, 0x097b203078633234343532646132323962303231622c20307866626538356261646365393936313639207d2c),
  (44, 0x097b203078663264353637393061623431633261322c20307866616532373239393432336662396334207d2c),
  (44, 0x097b203078393763353630626136623039313961352c20307864636364383739666339363764343162207d2c),
  (44, 0x097b203078626462366238653930356362363030662c20307835343030653938376262633163393231207d2c),
  (44, 0x097b203078656432343637323334373365333831332c20307832393031323365396161623233623639207d2c),
  (44, 0x097b203078393433366330373630633836653330622c20307866396130623637323061616636353232207d2c),
  (44, 0x097b203078623934343730393338666138396263652c20307866383038653430653864356233653661207d2c),
  (44, 0x097b203078653739353863623837333932633263322c20307862363062316431323330623230653035207d2c),
  (44, 0x097b203078393062643737663334383362623962392c20307862316336663232623565366634386333207d2c),
  (44, 0x097b203078623465636435663031613461613832382c20307831653338616562363336306231616634207d2c),
  (44, 0x097b203078653232383062366332306464353233322c20307832356336646136336333386465316231207d2c),
  (44, 0x097b203078386435393037323339343861353335662c20307835373963343837653561333861643066207d2c),
  (44, 0x097b203078623061663438656337396163653833372c20307832643833356139646630633664383532207d2c),
  (44, 0x097b203078646364623162323739383138323234342c20307866386534333134353663663838653636207d2c),
  (44, 0x097b203078386130386630663862663066313536622c20307831623865396563623634316235393030207d2c),
  (44, 0x097b203078616338623264333665656432646163352c20307865323732343637653364323232663430207d2c),
  (44, 0x097b203078643761646638383461613837393137372c20307835623065643831646363366162623130207d2c),
  (44, 0x097b203078383663636262353265613934626165612c20307839386539343731323966633262346561207d2c),
  (44, 0x097b203078613837666561323761353339653961352c20307833663233393864373437623336323235207d2c),
  (44, 0x097b203078643239666534623138653838363430652c20307838656563376630643139613033616165207d2c),
  (44, 0x097b203078383361336565656566393135336538392c20307831393533636636383330303432346164207d2c),
  (44, 0x097b203078613438636561616162373561386532622c20307835666138633334323363303532646438207d2c),
  (44, 0x097b203078636462303235353536353331333162362c20307833373932663431326362303637393465207d2c),
  (44, 0x097b203078383038653137353535663365626631312c20307865326262643838626265653430626431207d2c),
  (44, 0x097b203078613062313964326162373065366564362c20307835623661636561656165396430656335207d2c),
  (44, 0x097b203078633864653034373536346432306138622c20307866323435383235613561343435323736207d2c),
  (44, 0x097b203078666231353835393262653036386432652c20307865656436653266306630643536373133207d2c),
  (44, 0x097b203078396365643733376262366334313833642c20307835353436346464363936383536303663207d2c),
  (44, 0x097b203078633432386430356161343735316534632c20307861613937653134633363323662383837207d2c),
  (44, 0x097b203078663533333034373134643932363564662c20307864353364643939663462333036366139207d2c),
  (44, 0x097b203078393933666532633664303762376661622c20307865353436613830333865666534303261207d2c),
  (44, 0x097b203078626638666462373838343961356639362c20307864653938353230343732626464303334207d2c),
  (44, 0x097b203078656637336432353661356330663737632c20307839363365363638353866366434343431207d2c),
  (44, 0x097b203078393561383633373632373938396161642c20307864646537303031333739613434616139207d2c),
  (44, 0x097b203078626231323763353362313765633135392c20307835353630633031383538306435643533207d2c),
  (44, 0x097b203078653964373162363839646465373161662c20307861616238663031653665313062346137207d2c),
  (44, 0x097b203078393232363731323136326162303730642c20307863616233393631333034636137306539207d2c),
  (44, 0x097b203078623662303064363962623535633864312c20307833643630376239376335666430643233207d2c),
  (44, 0x097b203078653435633130633432613262336230352c20307838636238396137646237376335303662207d2c)]

/-- test_results/binary64_generated_cache.txt, lines 249-372. -/
def binary64_generated_cache_2 : List (Nat × Nat) := [
  (44, 0x097b203078386562393861376139613562303465332c20307837376633363038653932616462323433207d2c),
  (44, 0x097b203078623236376564313934306631633631632c20307835356630333862323337353931656434207d2c),
  (44, 0x097b203078646630316538356639313265333761332c20307836623663343664656335326636363839207d2c),
  (44, 0x097b203078386236313331336262616263653263362c20307832333233616334623362336461303136207d2c),
  (44, 0x097b203078616533393764386161393663316237372c20307861626563393735653061306430383162207d2c),
  (44, 0x097b203078643963376463656435336337323235352c20307839366537626433353863393034613232207d2c),
  (44, 0x097b203078383831636561313435343563373537352c20307837653530643634313737646132653535207d2c),
  (44, 0x097b203078616132343234393936393733393264322c20307864646535306264316435643062396561207d2c),
  (44, 0x097b203078643461643264626663336430373738372c20307839353565346563363462343465383635207d2c),
  (44, 0x097b203078383465633363393764613632346162342c20307862643561663133626566306231313366207d2c),
  (44, 0x097b203078613632373462626464306661646436312c20307865636231616438616561636464353866207d2c),
  (44, 0x097b203078636662313165616434353339393462612c20307836376465313865646135383134616633207d2c),
  (44, 0x097b203078383163656233326334623433666366342c20307838306561636639343837373063656438207d2c),
  (44, 0x097b203078613234323566663735653134666333312c20307861313235383337396139346430323865207d2c),
  (44, 0x097b203078636164326637663533353961336233652c20307830393665653435383133613034333331207d2c),
  (44, 0x097b203078666438376235663238333030636130642c20307838626361396436653138383835336664207d2c),
  (44, 0x097b203078396537346431623739316530376534382c20307837373565613236346366353533343765207d2c),
  (44, 0x097b203078633631323036323537363538396464612c20307839353336346166653033326138313965207d2c),
  (44, 0x097b203078663739363837616564336565633535312c20307833613833646462643833663532323035207d2c),
  (44, 0x097b203078396162653134636434343735336235322c20307863343932366139363732373933353433207d2c),
  (44, 0x097b203078633136643961303039353932386132372c20307837356237303533633066313738323934207d2c),
  (44, 0x097b203078663163393030383062616637326362312c20307835333234633638623132646436333339207d2c),
  (44, 0x097b203078393731646130353037346461376265652c20307864336636666331366562636135653034207d2c),
  (44, 0x097b203078626365353038363439323131316165612c20307838386634626231636136626366353835207d2c),
  (44, 0x097b203078656331653461376462363935363161352c20307832623331653965336430366333326536207d2c),
  (44, 0x097b203078393339326565386539323164356430372c20307833616666333232653632343339666430207d2c),
  (44, 0x097b203078623837376161333233366134623434392c20307830396265666562396661643438376333207d2c),
  (44, 0x097b203078653639353934626563343464653135622c20307834633265626536383739383961396234207d2c),
  (44, 0x097b203078393031643763663733616230616364392c20307830663964333730313462663630613131207d2c),
  (44, 0x097b203078623432346463333530393563643830662c20307835333834383463313965663338633935207d2c),
  (44, 0x097b203078653132653133343234626234306531332c20307832383635613566323036623036666261207d2c),
  (44, 0x097b203078386362636363303936663530383863622c20307866393366383762373434326534356434207d2c),
  (44, 0x097b203078616665626666306263623234616166652c20307866373866363961353135333964373439207d2c),
  (44, 0x097b203078646265366665636562646564643562652c20307862353733343430653561383834643163207d2c),
  (44, 0x097b203078383937303566343133366234613539372c20307833313638306138386638393533303331207d2c),
  (44, 0x097b203078616263633737313138343631636566632c20307866646332306432623336626137633365207d2c),
  (44, 0x097b203078643662663934643565353761343262632c20307833643332393037363034363931623464207d2c),
  (44, 0x097b203078383633376264303561663663363962352c20307861363366396134396332633162313130207d2c),
  (44, 0x097b203078613763356163343731623437383432332c20307830666366383064633333373231643534207d2c),
  (44, 0x097b203078643162373137353865323139363532622c20307864336333363131333430346561346139207d2c),
  (44, 0x097b203078383331323665393738643466646633622c20307836343561316361633038333132366561207d2c),
  (44, 0x097b203078613364373061336437306133643730612c20307833643730613364373061336437306134207d2c),
  (44, 0x097b203078636363636363636363636363636363632c20307863636363636363636363636363636364207d2c),
  (44, 0x097b203078383030303030303030303030303030302c20307830303030303030303030303030303030207d2c),
  (44, 0x097b203078613030303030303030303030303030302c20307830303030303030303030303030303030207d2c),
  (44, 0x097b203078633830303030303030303030303030302c20307830303030303030303030303030303030207d2c),
  (44, 0x097b203078666130303030303030303030303030302c20307830303030303030303030303030303030207d2c),
  (44, 0x097b203078396334303030303030303030303030302c20307830303030303030303030303030303030207d2c),
  (44, 0x097b203078633335303030303030303030303030302c20307830303030303030303030303030303030207d2c),
  (44, 0x097b203078663432343030303030303030303030302c20307830303030303030303030303030303030207d2c),
  (44, 0x097b203078393839363830303030303030303030302c20307830303030303030303030303030303030207d2c),
  (44, 0x097b203078626562633230303030303030303030302c20307830303030303030303030303030303030207d2c),
  (44, 0x097b203078656536623238303030303030303030302c20307830303030303030303030303030303030207d2c),
  (44, 0x097b203078393530326639303030303030303030302c20307830303030303030303030303030303030207d2c),
  (44, 0x097b203078626134336237343030303030303030302c20307830303030303030303030303030303030207d2c),
  (44, 0x097b203078653864346135313030303030303030302c20307830303030303030303030303030303030207d2c),
  (44, 0x097b203078393138346537326130303030303030302c20307830303030303030303030303030303030207d2c),
  (44, 0x097b203078623565363230663438303030303030302c20307830303030303030303030303030303030207d2c),
  (44, 0x097b203078653335666139333161303030303030302c20307830303030303030303030303030303030207d2c),
  (44, 0x097b203078386531626339626630343030303030302c20307830303030303030303030303030303030207d2c),
  (44, 0x097b203078623161326263326563353030303030302c20307830303030303030303030303030303030207d2c),
  (44, 0x097b203078646530623662336137363430303030302c20307830303030303030303030303030303030207d2c),
  (44, 0x097b203078386163373233303438396538303030302c20307830303030303030303030303030303030207d2c),
  (44, 0x097b203078616437386562633561633632303030302c20307830303030303030303030303030303030207d2c),
  (44, 0x097b203078643864373236623731373761383030302c20307830303030303030303030303030303030207d2c),
  (44, 0x097b203078383738363738333236656163393030302c20307830303030303030303030303030303030207d2c),
  (44, 0x097b203078613936383136336630613537623430302c20307830303030303030303030303030303030207d2c),
  (44, 0x097b203078643363323162636563636564613130302c20307830303030303030303030303030303030207d2c),
  (44, 0x097b203078383435393531363134303134383461302c20307830303030303030303030303030303030207d2c),
  (44, 0x097b203078613536666135623939303139613563382c20307830303030303030303030303030303030207d2c),
  (44, 0x097b203078636563623866323766343230306633612c20307830303030303030303030303030303030207d2c),
  (44, 0x097b203078383133663339373866383934303938342c20307834303030303030303030303030303030207d2c),
  (44, 0x097b203078613138663037643733366239306265352c20307835303030303030303030303030303030207d2c),
  (44, 0x097b203078633966326339636430343637346564652c20307861343030303030303030303030303030207d2c),
  (44, 0x097b203078666336663763343034353831323239362c20307834643030303030303030303030303030207d2c),
  (44, 0x097b203078396463356164613832623730623539642c20307866303230303030303030303030303030207d2c),
  (44, 0x097b203078633533373139313233363463653330352c20307836633238303030303030303030303030207d2c),
  (44, 0x097b203078663638346466353663336530316263362c20307863373332303030303030303030303030207d2c),
  (44, 0x097b203078396131333062393633613663313135632c20307833633766343030303030303030303030207d2c),
  (44, 0x097b203078633039376365376263393037313562332c20307834623966313030303030303030303030207d2c),
  (44, 0x097b203078663062646332316162623438646232302c20307831653836643430303030303030303030207d2c),
  (44, 0x097b203078393637363939353062353064383866342c20307831333134343438303030303030303030207d2c),
  (44, 0x097b203078626331343366613465323530656233312c20307831376439353561303030303030303030207d2c),
  (44, 0x097b203078656231393466386531616535323566642c20307835646366616230383030303030303030207d2c),
  (44, 0x097b203078393265666431623864306366333762652c20307835616131636165353030303030303030207d2c),
  (44, 0x097b203078623761626336323730353033303561642c20307866313461336439653430303030303030207d2c),
  (44, 0x097b203078653539366237623063363433633731392c20307836643963636430356430303030303030207d2c),
  (44, 0x097b203078386637653332636537626561356336662c20307865343832303032336132303030303030207d2c),
  (44, 0x097b203078623335646266383231616534663338622c20307864646132383032633861383030303030207d2c),
  (44, 0x097b203078653033353266363261313965333036652c20307864353062323033376164323030303030207d2c),
  (44, 0x097b203078386332313364396461353032646534352c20307834353236663432326363333430303030207d2c),
  (44, 0x097b203078616632393864303530653433393564362c20307839363730623132623766343130303030207d2c),
  (44, 0x097b203078646166336630343635316434376234632c20307833633063646437363566313134303030207d2c),
  (44, 0x097b203078383864383736326266333234636430662c20307861353838306136396662366163383030207d2c),
  (44, 0x097b203078616230653933623665666565303035332c20307838656561306430343761343537613030207d2c),
  (44, 0x097b203078643564323338613461626539383036382c20307837326134393034353938643664383830207d2c),
  (44, 0x097b203078383561333633363665623731663034312c20307834376136646132623766383634373530207d2c),
  (44, 0x097b203078613730633363343061363465366335312c20307839393930393062363566363764393234207d2c),
  (44, 0x097b203078643063663462353063666532303736352c20307866666634623465336637343163663664207d2c),
  (44, 0x097b203078383238313866313238316564343439662c20307862666638663130653761383932316134207d2c),
  (44, 0x097b203078613332316632643732323638393563372c20307861666637326435323139326236613064207d2c),
  (44, 0x097b203078636265613666386365623032626233392c20307839626634663861363966373634343930207d2c),
  (44, 0x097b203078666565353062373032356333366130382c20307830326632333664303437353364356234207d2c),
  (44, 0x097b203078396634663237323631373961323234352c20307830316437363234323263393436353930207d2c),
  (44, 0x097b203078633732326630656639643830616164362c20307834323464336164326237623937656635207d2c),
  (44, 0x097b203078663865626164326238346530643538622c20307864326530383938373635613764656232207d2c),
  (44, 0x097b203078396239333463336233333063383537372c20307836336363353566343966383865623266207d2c),
  (44, 0x097b203078633237383166343966666366613664352c20307833636266366237316337366232356662207d2c),
  (44, 0x097b203078663331363237316337666333393038612c20307838626566343634653339343565663761207d2c),
  (44, 0x097b203078393765646438373163666461336135362c20307839373735386266306533636262356163207d2c),
  (44, 0x097b203078626465393465386534336430633865632c20307833643532656565643163626561333137207d2c),
  (44, 0x097b203078656436336132333164346334666232372c20307834636137616161383633656534626464207d2c),
  (44, 0x097b203078393435653435356632346662316366382c20307838666538636161393365373465663661207d2c),
  (44, 0x097b203078623937356436623665653339653433362c20307862336532666435333865313232623434207d2c),
  (44, 0x097b203078653764333463363461396338356434342c20307836306462626361383731393662363136207d2c),
  (44, 0x097b203078393065343066626565613164336134612c20307862633839353565393436666533316364207d2c),
  (44, 0x097b203078623531643133616561346134383864642c20307836626162616236333938626462653431207d2c),
  (44, 0x097b203078653236343538396134646364616231342c20307863363936393633633765656432646431207d2c),
  (44, 0x097b203078386437656237363037306130386165632c20307866633165316465356366353433636132207d2c),
  (44, 0x097b203078623064653635333838636338616461382c20307833623235613535663433323934626362207d2c),
  (44, 0x097b203078646431356665383661666661643931322c20307834396566306562373133663339656265207d2c),
  (44, 0x097b203078386132646266313432646663633761622c20307836653335363933323663373834333337207d2c),
  (44, 0x097b203078616362393265643933393762663939362c20307834396332633337663037393635343034207d2c),
  (44, 0x097b203078643765373761386638376461663766622c20307864633333373435656339376265393036207d2c)]

/-- test_results/binary64_generated_cache.txt, lines 373-496. -/
def binary64_generated_cache_3 : List (Nat × Nat) := [
  (44, 0x097b203078383666306163393962346538646166642c20307836396130323862623364656437316133207d2c),
  (44, 0x097b203078613861636437633032323233313162632c20307863343038333265613064363863653063207d2c),
  (44, 0x097b203078643264383064623032616162643632622c20307866353061336661343930633330313930207d2c),
  (44, 0x097b203078383363373038386531616162363564622c20307837393236363763366461373965306661207d2c),
  (44, 0x097b203078613462386361623161313536336635322c20307835373730303162383931313835393338207d2c),
  (44, 0x097b203078636465366664356530396162636632362c20307865643463303232366235356536663836207d2c),
  (44, 0x097b203078383062303565356163363062363137382c20307835343466383135383331356230356234207d2c),
  (44, 0x097b203078613064633735663137373865333964362c20307836393633363161653364623163373231207d2c),
  (44, 0x097b203078633931333933366464353731633834632c20307830336263336131396364316533386539207d2c),
  (44, 0x097b203078666235383738343934616365336135662c20307830346162343861303430363563373233207d2c),
  (44, 0x097b203078396431373462326463656330653437622c20307836326562306436343238336639633736207d2c),
  (44, 0x097b203078633435643164663934323731316439612c20307833626135643062643332346638333934207d2c),
  (44, 0x097b203078663537343635373739333064363530302c20307863613866343465633765653336343739207d2c),
  (44, 0x097b203078393936386266366162626538356632302c20307837653939386231336366346531656362207d2c),
  (44, 0x097b203078626663326566343536616532373665382c20307839653366656464386333323161363765207d2c),
  (44, 0x097b203078656662336162313663353962313461322c20307863356366653934656633656131303165207d2c),
  (44, 0x097b203078393564303461656533623830656365352c20307862626131663164313538373234613132207d2c),
  (44, 0x097b203078626234343564613963613631323831662c20307832613861366534356165386564633937207d2c),
  (44, 0x097b203078656131353735313433636639373232362c20307866353264303964373161333239336264207d2c),
  (44, 0x097b203078393234643639326361363162653735382c20307835393363323632363730356639633536207d2c),
  (44, 0x097b203078623665306333373763666132653132652c20307836663862326662303063373738333663207d2c),
  (44, 0x097b203078653439386634353563333862393937612c20307830623664666239633066393536343437207d2c),
  (44, 0x097b203078386564663938623539613337336665632c20307834373234626434313839626435656163207d2c),
  (44, 0x097b203078623239373765653330306335306665372c20307835386564656339316563326362363537207d2c),
  (44, 0x097b203078646633643565396263306636353365312c20307832663239363762363637333765336564207d2c),
  (44, 0x097b203078386238363562323135383939663436632c20307862643739653064323030383265653734207d2c),
  (44, 0x097b203078616536376631653961656330373138372c20307865636438353930363830613361613131207d2c),
  (44, 0x097b203078646130316565363431613730386465392c20307865383065366634383230636339343935207d2c),
  (44, 0x097b203078383834313334666539303836353862322c20307833313039303538643134376664636464207d2c),
  (44, 0x097b203078616135313832336533346137656564652c20307862643462343666303539396664343135207d2c),
  (44, 0x097b203078643465356532636463316431656139362c20307836633965313861633730303763393161207d2c),
  (44, 0x097b203078383530666164633039393233333239652c20307830336532636636626336303464646230207d2c),
  (44, 0x097b203078613635333939333062663662666634352c20307838346462383334366237383631353163207d2c),
  (44, 0x097b203078636665383766376365663436666631362c20307865363132363431383635363739613633207d2c),
  (44, 0x097b203078383166313466616531353863356636652c20307834666362376538663366363063303765207d2c),
  (44, 0x097b203078613236646133393939616566373734392c20307865336265356533333066333866303964207d2c),
  (44, 0x097b203078636230393063383030316162353531632c20307835636164663562666433303732636335207d2c),
  (44, 0x097b203078666463623466613030323136326136332c20307837336439373332666337633866376636207d2c),
  (44, 0x097b203078396539663131633430313464646137652c20307832383637653766646463646439616661207d2c),
  (44, 0x097b203078633634366436333530316131353131642c20307862323831653166643534313530316238207d2c),
  (44, 0x097b203078663764383862633234323039613536352c20307831663232356137636139316134323236207d2c),
  (44, 0x097b203078396165373537353936393436303735662c20307833333735373838646539623036393538207d2c),
  (44, 0x097b203078633161313264326663333937383933372c20307830303532643662313634316338336165207d2c),
  (44, 0x097b203078663230393738376262343764366238342c20307863303637386335646264323361343961207d2c),
  (44, 0x097b203078393734356562346435306365363333322c20307866383430623762613936333634366530207d2c),
  (44, 0x097b203078626431373636323061353031666266662c20307862363530653561393362633364383938207d2c),
  (44, 0x097b203078656335643366613863653432376166662c20307861336535316631333861623463656265207d2c),
  (44, 0x097b203078393362613437633938306539386364662c20307863363666333336633336623130313337207d2c),
  (44, 0x097b203078623861386439626265313233663031372c20307862383062303034373434356434313834207d2c),
  (44, 0x097b203078653664333130326164393663656331642c20307861363064633035393135373439316535207d2c),
  (44, 0x097b203078393034336561316163376534313339322c20307838376338393833376164363864623266207d2c),
  (44, 0x097b203078623435346534613137396464313837372c20307832396261626534353938633331316662207d2c),
  (44, 0x097b203078653136613164633964383534356539342c20307866343239366464366665663364363761207d2c),
  (44, 0x097b203078386365323532396532373334626231642c20307831383939653461363566353836363063207d2c),
  (44, 0x097b203078623031616537343562313031653965342c20307835656330356463666637326537663866207d2c),
  (44, 0x097b203078646332316131313731643432363435642c20307837363730373534336634666131663733207d2c),
  (44, 0x097b203078383939353034616537323439376562612c20307836613036343934613739316335336138207d2c),
  (44, 0x097b203078616266613435646130656462646536392c20307830343837646239643137363336383932207d2c),
  (44, 0x097b203078643666386437353039323932643630332c20307834356139643238343564336334326236207d2c),
  (44, 0x097b203078383635623836393235623962633563322c20307830623861323339326261343561396232207d2c),
  (44, 0x097b203078613766323638333666323832623733322c20307838653663616337373638643731343165207d2c),
  (44, 0x097b203078643165663032343461663233363466662c20307833323037643739353433306364393236207d2c),
  (44, 0x097b203078383333353631366165643736316631662c20307837663434653662643439653830376238207d2c),
  (44, 0x097b203078613430326239633561386433613665372c20307835663136323036633963363230396136207d2c),
  (44, 0x097b203078636430333638333731333038393061312c20307833366462613838376333376138633066207d2c),
  (44, 0x097b203078383032323231323236626535356136342c20307863323439343935346461326339373839207d2c),
  (44, 0x097b203078613032616139366230366465623066642c20307866326462396261613130623762643663207d2c),
  (44, 0x097b203078633833353533633563383936356433642c20307836663932383239343934653561636337207d2c),
  (44, 0x097b203078666134326138623733616262663438632c20307863623737323333396261316631376639207d2c),
  (44, 0x097b203078396336396139373238346235373864372c20307866663261373630343134353336656662207d2c),
  (44, 0x097b203078633338343133636632356532643730642c20307866656635313338353139363834616261207d2c),
  (44, 0x097b203078663436353138633265663562386364312c20307837656232353836363566633235643639207d2c),
  (44, 0x097b203078393862663266373964353939333830322c20307865663266373733666662643937613631207d2c),
  (44, 0x097b203078626565656662353834616666383630332c20307861616662353530666661636664386661207d2c),
  (44, 0x097b203078656561616261326535646266363738342c20307839356261326135336639383363663338207d2c),
  (44, 0x097b203078393532616234356366613937613062322c20307864643934356137343762663236313833207d2c),
  (44, 0x097b203078626137353631373433393364383864662c20307839346639373131313961656566396534207d2c),
  (44, 0x097b203078653931326239643134373863656231372c20307837613337636435363031616162383564207d2c),
  (44, 0x097b203078393161626234323263636238313265652c20307861633632653035356331306162333361207d2c),
  (44, 0x097b203078623631366131326237666536313761612c20307835373762393836623331346436303039207d2c),
  (44, 0x097b203078653339633439373635666466396439342c20307865643561376538356664613062383062207d2c),
  (44, 0x097b203078386534316164653966626562633237642c20307831343538386631336265383437333037207d2c),
  (44, 0x097b203078623164323139363437616536623331632c20307835393665623264386165323538666338207d2c),
  (44, 0x097b203078646534363966626439396130356665332c20307836666361356638656439616566336262207d2c),
  (44, 0x097b203078386165633233643638303034336265652c20307832356465376262393438306435383534207d2c),
  (44, 0x097b203078616461373263636332303035346165392c20307861663536316161373961313061653661207d2c),
  (44, 0x097b203078643931306637666632383036396461342c20307831623262613135313830393464613034207d2c),
  (44, 0x097b203078383761613961666637393034323238362c20307839306662343464326630356430383432207d2c),
  (44, 0x097b203078613939353431626635373435326232382c20307833353361313630376163373434613533207d2c),
  (44, 0x097b203078643366613932326632643136373566322c20307834323838396238393937393135636538207d2c),
  (44, 0x097b203078383437633962356437633265303962372c20307836393935363133356665626164613131207d2c),
  (44, 0x097b203078613539626332333464623339386332352c20307834336661623938333765363939303935207d2c),
  (44, 0x097b203078636630326232633231323037656632652c20307839346639363765343565303366346262207d2c),
  (44, 0x097b203078383136316166623934623434663537642c20307831643162653065656261633237386635207d2c),
  (44, 0x097b203078613162613162613739653136333264632c20307836343632643932613639373331373332207d2c),
  (44, 0x097b203078636132386132393138353962626639332c20307837643762386637353033636664636665207d2c),
  (44, 0x097b203078666362326362333565373032616637382c20307835636461373335323434633364343365207d2c),
  (44, 0x097b203078396465666266303162303631616461622c20307833613038383831333661666136346137207d2c),
  (44, 0x097b203078633536626165633231633761313931362c20307830383861616131383435623866646430207d2c),
  (44, 0x097b203078663663363961373261333938396635622c20307838616164353439653537323733643435207d2c),
  (44, 0x097b203078396133633230383761363366363339392c20307833366163353465326636373838363462207d2c),
  (44, 0x097b203078633063623238613938666366336337662c20307838343537366131626234313661376464207d2c),
  (44, 0x097b203078663066646632643366336333306239662c20307836353664343461326131316335316435207d2c),
  (44, 0x097b203078393639656237633437383539653734332c20307839663634346165356134623162333235207d2c),
  (44, 0x097b203078626334363635623539363730363131342c20307838373364356439663064646531666565207d2c),
  (44, 0x097b203078656235376666323266633063373935392c20307861393063623530366431353561376561207d2c),
  (44, 0x097b203078393331366666373564643837636264382c20307830396137663132343432643538386632207d2c),
  (44, 0x097b203078623764636266353335346539626563652c20307830633131656436643533386165623266207d2c),
  (44, 0x097b203078653564336566323832613234326538312c20307838663136363863386138366461356661207d2c),
  (44, 0x097b203078386661343735373931613536396431302c20307866393665303137643639343438376263207d2c),
  (44, 0x097b203078623338643932643736306563343435352c20307833376339383164636333393561396163207d2c),
  (44, 0x097b203078653037306637386433393237353536612c20307838356262653235336634376231343137207d2c),
  (44, 0x097b203078386334363961623834336238393536322c20307839333935366437343738636365633865207d2c),
  (44, 0x097b203078616635383431363635346136626162622c20307833383761633864313937303032376232207d2c),
  (44, 0x097b203078646232653531626665396430363936612c20307830363939376230356663633033313965207d2c),
  (44, 0x097b203078383866636633313766323232343165322c20307834343166656365336264663831663033207d2c),
  (44, 0x097b203078616233633266646465656161643235612c20307864353237653831636164373632366333207d2c),
  (44, 0x097b203078643630623362643536613535383666312c20307838613731653232336438643362303734207d2c),
  (44, 0x097b203078383563373035363536323735373435362c20307866363837326435363637383434653439207d2c),
  (44, 0x097b203078613733386336626562623132643136632c20307862343238663861633031363536316462207d2c),
  (44, 0x097b203078643130366638366536396437383563372c20307865313333333664373031626562613532207d2c),
  (44, 0x097b203078383261343562343530323236623339632c20307865636330303234363631313733343733207d2c),
  (44, 0x097b203078613334643732313634326230363038342c20307832376630303264376639356430313930207d2c),
  (44, 0x097b203078636332306365396264333563373861352c20307833316563303338646637623434316634207d2c)]

/-- test_results/binary64_generated_cache.txt, lines 497-618. -/
def binary64_generated_cache_4 : List (Nat × Nat) := [
  (44, 0x097b203078666632393032343263383333393663652c20307837653637303437313735613135323731207d2c),
  (44, 0x097b203078396637396131363962643230336534312c20307830663030363263366539383464333836207d2c),
  (44, 0x097b203078633735383039633432633638346464312c20307835326330376237386133653630383638207d2c),
  (44, 0x097b203078663932653063333533373832363134352c20307861373730396135366363646638613832207d2c),
  (44, 0x097b203078396262636337613134326231376363622c20307838386136363037363430306262363931207d2c),
  (44, 0x097b203078633261626639383939333564646266652c20307836616366663839336430306561343335207d2c),
  (44, 0x097b203078663335366637656266383335353266652c20307830353833663662386334313234643433207d2c),
  (44, 0x097b203078393831363561663337623231353364652c20307863333732376133333761386237303461207d2c),
  (44, 0x097b203078626531626631623035396539613864362c20307837343466313863303539326534633563207d2c),
  (44, 0x097b203078656461326565316337303634313330632c20307831313632646566303666373964663733207d2c),
  (44, 0x097b203078393438356434643163363365386265372c20307838616464636235363435616332626138207d2c),
  (44, 0x097b203078623961373461303633376365326565312c20307836643935336532626437313733363932207d2c),
  (44, 0x097b203078653831313163383763356331626139392c20307863386661386462366363646430343337207d2c),
  (44, 0x097b203078393130616231643464623939313461302c20307831643963393839323430306132326132207d2c),
  (44, 0x097b203078623534643565346131323766353963382c20307832353033626562366430306361623462207d2c),
  (44, 0x097b203078653261306235646339373166333033612c20307832653434616536343834306664363164207d2c),
  (44, 0x097b203078386461343731613964653733376532342c20307835636561656366656432383965356432207d2c),
  (44, 0x097b203078623130643865313435363130356461642c20307837343235613833653837326335663437207d2c),
  (44, 0x097b203078646435306631393936623934373531382c20307864313266313234653238663737373139207d2c),
  (44, 0x097b203078386135323936666665333363633932662c20307838326264366237306439396161613666207d2c),
  (44, 0x097b203078616365373363626664633062666237622c20307836333663633634643130303135353062207d2c),
  (44, 0x097b203078643832313062656664333065666135612c20307833633437663765303534303161613465207d2c),
  (44, 0x097b203078383731346137373565336539356337382c20307836356163666165633334383130613731207d2c),
  (44, 0x097b203078613864396431353335636533623339362c20307837663138333961373431613134643064207d2c),
  (44, 0x097b203078643331303435613833343163613037632c20307831656465343831313132303961303530207d2c),
  (44, 0x097b203078383365613262383932303931653434642c20307839333461656430616162343630343332207d2c),
  (44, 0x097b203078613465346236366236386236356436302c20307866383164613834643536313738353366207d2c),
  (44, 0x097b203078636531646534303634326533663462392c20307833363235313236306162396436363865207d2c),
  (44, 0x097b203078383064326165383365396365373866332c20307863316437326237633662343236303139207d2c),
  (44, 0x097b203078613130373561323465343432313733302c20307862323463663635623836313266383166207d2c),
  (44, 0x097b203078633934393330616531643532396366632c20307864656530333366323637393762363237207d2c),
  (44, 0x097b203078666239623763643961346137343433632c20307831363938343065663031376461336231207d2c),
  (44, 0x097b203078396434313265303830366538386161352c20307838653166323839353630656538363465207d2c),
  (44, 0x097b203078633439313739386130386132616434652c20307866316136663262616239326132376532207d2c),
  (44, 0x097b203078663562356437656338616362353861322c20307861653130616636393637373462316462207d2c),
  (44, 0x097b203078393939316136663364366266313736352c20307861636361366461316530613865663239207d2c),
  (44, 0x097b203078626666363130623063633665646433662c20307831376664303930613538643332616633207d2c),
  (44, 0x097b203078656666333934646366663861393438652c20307864646663346234636566303766356230207d2c),
  (44, 0x097b203078393566383364306131666236396364392c20307834616264616631303135363466393865207d2c),
  (44, 0x097b203078626237363463346361376134343430662c20307839643664316164343161626533376631207d2c),
  (44, 0x097b203078656135336466356664313864353531332c20307838346338363138393231366463356564207d2c),
  (44, 0x097b203078393237343662396265326638353532632c20307833326664336366356234653439626234207d2c),
  (44, 0x097b203078623731313836383264626236366137372c20307833666263386333333232316463326131207d2c),
  (44, 0x097b203078653464356538323339326134303531352c20307830666162616633666561613533333461207d2c),
  (44, 0x097b203078386630356231313633626136383332642c20307832396362346438376632613734303065207d2c),
  (44, 0x097b203078623263373164356263613930323366382c20307837343365323065396566353131303132207d2c),
  (44, 0x097b203078646637386534623262643334326366362c20307839313464613932343662323535343136207d2c),
  (44, 0x097b203078386261623865656662363430396331612c20307831616430383962366332663735343865207d2c),
  (44, 0x097b203078616539363732616261336430633332302c20307861313834616332343733623532396231207d2c),
  (44, 0x097b203078646133633066353638636334663365382c20307863396535643732643930613237343165207d2c),
  (44, 0x097b203078383836353839393631376662313837312c20307837653266613637633761363538383932207d2c),
  (44, 0x097b203078616137656562666239646639646538642c20307864646262393031623938666565616237207d2c),
  (44, 0x097b203078643531656136666138353738353633312c20307835353261373432323766336561353635207d2c),
  (44, 0x097b203078383533333238356339333662333564652c20307864353361383839353866383732373566207d2c),
  (44, 0x097b203078613637666632373362383436303335362c20307838613839326162616633363866313337207d2c),
  (44, 0x097b203078643031666566313061363537383432632c20307832643262373536396230343332643835207d2c),
  (44, 0x097b203078383231336635366136376636623239622c20307839633362323936323065323966633733207d2c),
  (44, 0x097b203078613239386632633530316634356634322c20307838333439663362613931623437623866207d2c),
  (44, 0x097b203078636233663266373634323731373731332c20307832343163373061393336323139613733207d2c),
  (44, 0x097b203078666530656662353364333064643464372c20307865643233386364333833616130313130207d2c),
  (44, 0x097b203078396563393564313436336538613530362c20307866343336333830343332346134306161207d2c),
  (44, 0x097b203078633637626234353937636532636534382c20307862313433633630353365646364306435207d2c),
  (44, 0x097b203078663831616131366664633162383164612c20307864643934623738363865393430353061207d2c),
  (44, 0x097b203078396231306134653565393931333132382c20307863613763663262343139316338333236207d2c),
  (44, 0x097b203078633164346365316636336635376437322c20307866643163326636313166363361336630207d2c),
  (44, 0x097b203078663234613031613733636632646363662c20307862633633336233393637336338636563207d2c),
  (44, 0x097b203078393736653431303838363137636130312c20307864356265303530336530383564383133207d2c),
  (44, 0x097b203078626434396431346161373964626338322c20307834623264383634346438613734653138207d2c),
  (44, 0x097b203078656339633435396435313835326261322c20307864646638653764363065643132313965207d2c),
  (44, 0x097b203078393365316162383235326633336234352c20307863616262393065356339343262353033207d2c),
  (44, 0x097b203078623864613136363265376230306131372c20307833643661373531663362393336323433207d2c),
  (44, 0x097b203078653731303962666261313963306339642c20307830636335313236373061373833616434207d2c),
  (44, 0x097b203078393036613631376434353031383765322c20307832376662326238303636386232346335207d2c),
  (44, 0x097b203078623438346639646339363431653964612c20307862316639663636303830326465646636207d2c),
  (44, 0x097b203078653161363338353362626432363435312c20307835653738373366386130333936393733207d2c),
  (44, 0x097b203078386430376533333435353633376562322c20307864623062343837623634323365316538207d2c),
  (44, 0x097b203078623034396463303136616263356535662c20307839316365316139613364326364613632207d2c),
  (44, 0x097b203078646335633533303163353662373566372c20307837363431613134306363373831306662207d2c),
  (44, 0x097b203078383962396233653131623633323962612c20307861396539303463383766636230613964207d2c),
  (44, 0x097b203078616332383230643936323362663432392c20307835343633343566613966626463643434207d2c),
  (44, 0x097b203078643733323239306662616361663133332c20307861393763313737393437616434303935207d2c),
  (44, 0x097b203078383637663539613964346265643663302c20307834396564386561626363636334383564207d2c),
  (44, 0x097b203078613831663330313434396565386337302c20307835633638663235366266666635613734207d2c),
  (44, 0x097b203078643232366663313935633661326638632c20307837333833326565633666666633313131207d2c),
  (44, 0x097b203078383335383564386664396332356462372c20307863383331666435336335666637656162207d2c),
  (44, 0x097b203078613432653734663364303332663532352c20307862613365376361386237376635653535207d2c),
  (44, 0x097b203078636433613132333063343366623236662c20307832386365316264326535356633356562207d2c),
  (44, 0x097b203078383034343462356537616137636638352c20307837393830643136336366356238316233207d2c),
  (44, 0x097b203078613035353565333631393531633336362c20307864376531303562636333333236323166207d2c),
  (44, 0x097b203078633836616235633339666136333434302c20307838646439343732626633666566616137207d2c),
  (44, 0x097b203078666138353633333438373866633135302c20307862313466393866366630666562393531207d2c),
  (44, 0x097b203078396339333565303064346239643864322c20307836656431626639613536396633336433207d2c),
  (44, 0x097b203078633362383335383130396538346630372c20307830613836326638306563343730306338207d2c),
  (44, 0x097b203078663461363432653134633632363263382c20307863643237626236313237353863306661207d2c),
  (44, 0x097b203078393865376539636363666264376462642c20307838303338643531636238393737383963207d2c),
  (44, 0x097b203078626632316534343030336163646432632c20307865303437306136336536626435366333207d2c),
  (44, 0x097b203078656565613564353030343938313437382c20307831383538636366636530366361633734207d2c),
  (44, 0x097b203078393535323761353230326466306363622c20307830663337383031653063343365626338207d2c),
  (44, 0x097b203078626161373138653638333936636666642c20307864333035363032353866353465366261207d2c),
  (44, 0x097b203078653935306466323032343763383366642c20307834376336623832656633326132303639207d2c),
  (44, 0x097b203078393164323862373431366364643237652c20307834636463333331643537666135343431207d2c),
  (44, 0x097b203078623634373265353131633831343731642c20307865303133336665346164663865393532207d2c),
  (44, 0x097b203078653364386639653536336131393865352c20307835383138306664646439373732336136207d2c),
  (44, 0x097b203078386536373963326635653434666638662c20307835373066303965616137656137363438207d2c),
  (44, 0x097b203078623230313833336233356436336637332c20307832636432636336353531653531336461207d2c),
  (44, 0x097b203078646538316534306130333462636634662c20307866383037376637656136356535386431207d2c),
  (44, 0x097b203078386231313265383634323066363139312c20307866623034616661663237666166373832207d2c),
  (44, 0x097b203078616464353761323764323933333966362c20307837396335646239616631663962353633207d2c),
  (44, 0x097b203078643934616438623163373338303837342c20307831383337353238316165373832326263207d2c),
  (44, 0x097b203078383763656337366631633833303534382c20307838663232393339313064306231356235207d2c),
  (44, 0x097b203078613963323739346165336133633639612c20307862326562333837353530346464623232207d2c),
  (44, 0x097b203078643433333137396439633863623834312c20307835666136303639326134363135316562207d2c),
  (44, 0x097b203078383439666565633238316437663332382c20307864626337633431626136626364333333207d2c),
  (44, 0x097b203078613563376561373332323464656666332c20307831326239623532323930366330383030207d2c),
  (44, 0x097b203078636633396535306665616531366265662c20307864373638323236623334383730613030207d2c),
  (44, 0x097b203078383138343266323966326363653337352c20307865366131313538333030643436363430207d2c),
  (44, 0x097b203078613165353361663436663830316335332c20307836303439356165336331303937666430207d2c),
  (44, 0x097b203078636135653839623138623630323336382c20307833383562623139636231346264666334207d2c),
  (44, 0x097b203078666366363263316465653338326334322c20307834363732396530336464396564376235207d2c),
  (44, 0x097b203078396531396462393262346533316261392c20307836633037613263323661383334366431207d2c),
  (43, 0x097b203078633561303532373736323162653239332c20307863373039386237333035323431383835207d),
  (2, 0x7d3b)]

/-- test_results/binary64_generated_cache.txt. -/
def binary64_generated_cache : List (Nat × Nat) :=
  binary64_generated_cache_0 ++ binary64_generated_cache_1 ++ binary64_generated_cache_2 ++ binary64_generated_cache_3 ++ binary64_generated_cache_4

end Grisu.ResultFiles
