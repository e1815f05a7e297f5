import Verif.Conformance.External

/-!
# IAS test data of teerex/sgx-verify, copied byte by byte
-/

namespace Verif.Conf.Data

/-- teerex/sgx-verify/test-data/ra_dump_cert_TEST4.der. -/
def cert4 : Bytes := unhex [
  (64, 0x30820c9e30820c45a003020102020101300a06082a8648ce3d04030230153113301106035504030c0a53756273747261544545301e170d323030343236313131),
  (64, 0x3632355a170d3230303732353131313632355a301f311d301b06035504030c145375627374726154454520657068656d6572616c3059301306072a8648ce3d02),
  (64, 0x0106082a8648ce3d03010703420004be88f0307fa2e137671b1d88f8e4d83a5a1ccbde242f48cb62436fc66f906e08c1b4839dfede9b3d458c9041378a762e24),
  (64, 0x44dc2a1ae793c698e8ec74c0b7ad0da3820b7a30820b7630820b7206096086480186f842010d04820b637b226964223a22323238333535333737333137323335),
  (64, 0x323637323731303436303035353438363133303632373738222c2274696d657374616d70223a22323032302d30342d32365431313a31363a32352e3334393835),
  (64, 0x30222c2276657273696f6e223a332c22697376456e636c61766551756f7465537461747573223a22434f4e46494755524154494f4e5f4e4545444544222c2270),
  (64, 0x6c6174666f726d496e666f426c6f62223a2231353032303036353030303030383030303030453045303230343031383030373030303030303030303030303030),
  (64, 0x30303030304230303030304230303030303030323030303030303030303030303042414435414232394446344438353335343134453745343544454342324341),
  (64, 0x33364335383137383539343131463630423939343845424642314535303238344234374431314137383338303045433541304238383530304646333144303746),
  (64, 0x353837343941364245434631443443413435333134323133364334453639434534373845222c22697376456e636c61766551756f7465426f6479223a22416741),
  (64, 0x41414b304c4141414c41416f4141414141414f4f6176506c514661572f62483032447655445868534a515632424a725a334931325949794f476666644d446734),
  (64, 0x464251482f4141414141414141414141414141414141414141414141414141414141414141414141414141414141414141414141414141414141414141427741),
  (64, 0x414141414141414148414141414141414141486f30564f795051754a6c7931766e3339455234646c617867647532436f4a534c4c6970467a7865324b67414141),
  (64, 0x414141414141414141414141414141414141414141414141414141414141414141414141414141434431786e6e6665724b464844327576597154586444413869),
  (64, 0x5a32326b434435787737683338434d664f6e67414141414141414141414141414141414141414141414141414141414141414141414141414141414141414141),
  (64, 0x41414141414141414141414141414141414141414141414141414141414141414141414141414141414141414141414141414141414141414141414141414141),
  (64, 0x41414141414141414141414141414141414141414141414141414141414141414141414141414141414141414141414141414141414141414141414141414141),
  (64, 0x414141414141414141414141414141414141414141414141414141414141414141414141414141435479376b4636555864675833366876395334535965662f61),
  (64, 0x5662506933626758704e676b4b6f7055546a41414141414141414141414141414141414141414141414141414141414141414141414141414141414141227d7c),
  (64, 0x4a64524a57327033452f36653948614931534b4349612f2b7568627335616346324d437a335566796441626e4d616e673646317046702b6139462b504833484e),
  (64, 0x38674c6663484247734833696d724c503634304c4b382b79586e5a70316e7631373879565645634b6d334e38676c2f30636934596a314e54734639794c306c7a),
  (64, 0x7972627836506e43504e744c55645a3479563955663053737a633258694d743968735a3647583348364a4f346a4d715533585344315479697a7738704e58466c),
  (64, 0x587755546e3967546d6245426a44687a444c454d5a33566833792f4733716f5061784c7076794c7448512f374351336c4e643547714f79612f444c4337745444),
  (64, 0x6b415a486f424471446e2f2f6662786459774b52757a383244774c434730524f3572694136686e723756627574353632542b4a514a586f666d5779474d6c4e68),
  (64, 0x514b564f44585733676a4c5a466f6b2b4c674f6c56513d3d7c4d4949456f54434341776d67417749424167494a414e4548646c30796f3743574d413047435371),
  (64, 0x475349623344514542437755414d483478437a414a42674e5642415954416c56544d517377435159445651514944414a44515445554d42494741315545427777),
  (64, 0x4c553246756447456751327868636d4578476a415942674e5642416f4d45556c756447567349454e76636e4276636d4630615739754d5441774c675944565151),
  (64, 0x444443644a626e526c6243425452316767515852305a584e305958527062323467556d567762334a3049464e705a323570626d6367513045774868634e4d5459),
  (64, 0x784d5449794d446b7a4e6a55345768634e4d6a59784d5449774d446b7a4e6a5534576a42374d517377435159445651514745774a56557a454c4d416b47413155),
  (64, 0x4543417743513045784644415342674e564241634d43314e68626e526849454e7359584a684d526f77474159445651514b4442464a626e526c6243424462334a),
  (64, 0x7762334a6864476c76626a45744d437347413155454177776b535735305a57776755306459494546306447567a644746306157397549464a6c63473979644342),
  (64, 0x54615764756157356e4d494942496a414e42676b71686b6947397730424151454641414f43415138414d49494243674b434151454171586f74344f5a75706852),
  (64, 0x386e75644672414669614778786b676d612f45732f42412b74626543545552313036414c31454e635741344658334b2b453942424c302f375835726a356e4967),
  (64, 0x582f522f317562686b4b5777396766715047334b654174496463762f75544f3179587635307671615076453143524368767a64532f5a45427151356f56764c54),
  (64, 0x505a3356456963516a6c79744b674e39634c6e7862777475764c554b3765795250664a572f6b7364644f7a50385642426e696f6c596e524344326a724d525a38),
  (64, 0x6e424d325a5759776e586e7759654f4148562b5739744f6841496d7752774b462f393579417356776432317279484d4a426347483730714c61675a3754747974),
  (64, 0x2b2b714f2f362b4b41584a754b775a716a526c457453457a38675a51654666565967637753666f39366f534d417a56723756304c364853444c526e7062367878),
  (64, 0x6d625064714e6f6c3474514944415141426f34476b4d4947684d42384741315564497751594d426141464868446533616d66727a51723335434e2b7331664475),
  (64, 0x48415645384d41344741315564447745422f775145417749477744414d42674e5648524d4241663845416a41414d474147413155644877525a4d466377566142),
  (64, 0x546f46474754326830644841364c793930636e567a6447566b63325679646d6c6a5a584d75615735305a577775593239744c324e76626e526c626e517651314a),
  (64, 0x4d4c314e48574339426448526c6333526864476c76626c4a6c6347397964464e705a323570626d64445153356a636d77774451594a4b6f5a496876634e415145),
  (64, 0x4c425141446767474241476349746874634b394956527a347252712b5a4b452b376b35302f4f7855736d57386161764f7a4b62306943783037595139727a6935),
  (64, 0x6e553733744d45327947524c7a6853566946732f4c704661396c70514c364a4c316151776d4452373454785947424149693566344935544a6f4343457152487a),
  (64, 0x39316b7047365576796e32744c6d6e49644a62504534765976574c72745858664642535350443441666e372b332f58556767416c63376f4354697a4f66626274),
  (64, 0x4f466c59413467354b63596753314a325a41654d51716255645a73655a4363615a5a5a6e363574647165653855585a6c447678302b4e644f304c522b35704679),
  (64, 0x2b6a754d307757627535394d767a636d5458626a7369374859367a6435335971354b32343466774648525138654f42304957422b3450664d3746654141705a76),
  (64, 0x6c66716c4b4f6c4c635a4c327579566d7a526b79523579573732756f396d65685834344369504a32667365395936655174636645684d506b6d4858493031734e),
  (64, 0x2b4b775062704133392b784f7353746a6850394e3159316132745141566f2b7956674c67563248777337334663306f3377433738715045412b76326152732f42),
  (64, 0x65335a46446744796768632f316667552b37432b50366b62716434706f7962364957384b434a6278664d4a766b6f72644e4f674f5555786e64504845692f7462),
  (64, 0x2f5537754c6a4c4f6750413d3d300a06082a8648ce3d040302034700304402204ed56b1cf534d7949f67cf5bde8eb380a8ac3ba7a96b79125b5662243c261749),
  (34, 0x022024b053f1761c69a3008befe0f3772f7015bf2839b0d04c8a3baa2b5d5e431996)]

/-- teerex/sgx-verify/test-data/ra_dump_cert_TEST5.der. -/
def cert5 : Bytes := unhex [
  (64, 0x30820c9e30820c45a003020102020101300a06082a8648ce3d04030230153113301106035504030c0a53756273747261544545301e170d323030343236313132),
  (64, 0x3031335a170d3230303732353131323031335a301f311d301b06035504030c145375627374726154454520657068656d6572616c3059301306072a8648ce3d02),
  (64, 0x0106082a8648ce3d030107034200046fb68e66a0d3bc676a12098610b3c89ebe6efa03e18817427344ae404992217e6f991ec1c56cf3295f7bc5832d9f747827),
  (64, 0xc14f44a56ca1128ab9d8d7faa5ba52a3820b7a30820b7630820b7206096086480186f842010d04820b637b226964223a22323533393930323532373436393839),
  (64, 0x363831333239303131343632313235333630333430343432222c2274696d657374616d70223a22323032302d30342d32365431313a32303a31332e3135343134),
  (64, 0x30222c2276657273696f6e223a332c22697376456e636c61766551756f7465537461747573223a22434f4e46494755524154494f4e5f4e4545444544222c2270),
  (64, 0x6c6174666f726d496e666f426c6f62223a2231353032303036353030303030383030303030453045303230343031383030373030303030303030303030303030),
  (64, 0x30303030304230303030304230303030303030323030303030303030303030303042414434374645453636454443313837433439313338413234434544324434),
  (64, 0x37423638313837303541373943324445363438454142464535424644354546453339453339303237364230373330343832454145463341433543334243353943),
  (64, 0x433443444142313235443936433231303444433733314646304539464437323538434345222c22697376456e636c61766551756f7465426f6479223a22416741),
  (64, 0x41414b304c4141414c41416f4141414141414f4f6176506c514661572f6248303244765544586851516155627741787953396e746362555836496c3265446734),
  (64, 0x464251482f4141414141414141414141414141414141414141414141414141414141414141414141414141414141414141414141414141414141414141427741),
  (64, 0x41414141414141414841414141414141414150546533386e6c2f4d5345517a4d727962497859634e4b50443961615336762f62496f32796533424e6e52414141),
  (64, 0x414141414141414141414141414141414141414141414141414141414141414141414141414141434431786e6e6665724b464844327576597154586444413869),
  (64, 0x5a32326b434435787737683338434d664f6e67414141414141414141414141414141414141414141414141414141414141414141414141414141414141414141),
  (64, 0x41414141414141414141414141414141414141414141414141414141414141414141414141414141414141414141414141414141414141414141414141414141),
  (64, 0x41414141414141414141414141414141414141414141414141414141414141414141414141414141414141414141414141414141414141414141414141414141),
  (64, 0x414141414141414141414141414141414141414141414141414141414141414141414141414141435479376b4636555864675833366876395334535965662f61),
  (64, 0x5662506933626758704e676b4b6f7055546a41414141414141414141414141414141414141414141414141414141414141414141414141414141414141227d7c),
  (64, 0x6e636d596972552b386e39363970343076416b7776356e6b6b73306b5876734537776830774e786d3569527464704f524d7170654f434835415644787549766c),
  (64, 0x736545646c4c49345335546c554851746a67555746306a59786846735274656f764b304174655777665a636f723032564a706c535737576457533946306f3650),
  (64, 0x386c356e34544a794a5355346e785969557053704967632b3074696b50586c6a53677437666755417547336c58695565616a5a6564652f4f72507a6a522f395a),
  (64, 0x63774a333034636d3131766b54773543376438616e33534f614b3964504f6d7a746b4d4135325133633952755764494276763272684d6b39437a336f302b3355),
  (64, 0x65766d54386f35353064667452356b2f704c4f535231674d61727775794f69637432536e6c654e5a6d5553436e4e456f673652433463776c412f4a4146764e35),
  (64, 0x37587358456e56336e4777386b4d2f767634483537413d3d7c4d4949456f54434341776d67417749424167494a414e4548646c30796f3743574d413047435371),
  (64, 0x475349623344514542437755414d483478437a414a42674e5642415954416c56544d517377435159445651514944414a44515445554d42494741315545427777),
  (64, 0x4c553246756447456751327868636d4578476a415942674e5642416f4d45556c756447567349454e76636e4276636d4630615739754d5441774c675944565151),
  (64, 0x444443644a626e526c6243425452316767515852305a584e305958527062323467556d567762334a3049464e705a323570626d6367513045774868634e4d5459),
  (64, 0x784d5449794d446b7a4e6a55345768634e4d6a59784d5449774d446b7a4e6a5534576a42374d517377435159445651514745774a56557a454c4d416b47413155),
  (64, 0x4543417743513045784644415342674e564241634d43314e68626e526849454e7359584a684d526f77474159445651514b4442464a626e526c6243424462334a),
  (64, 0x7762334a6864476c76626a45744d437347413155454177776b535735305a57776755306459494546306447567a644746306157397549464a6c63473979644342),
  (64, 0x54615764756157356e4d494942496a414e42676b71686b6947397730424151454641414f43415138414d49494243674b434151454171586f74344f5a75706852),
  (64, 0x386e75644672414669614778786b676d612f45732f42412b74626543545552313036414c31454e635741344658334b2b453942424c302f375835726a356e4967),
  (64, 0x582f522f317562686b4b5777396766715047334b654174496463762f75544f3179587635307671615076453143524368767a64532f5a45427151356f56764c54),
  (64, 0x505a3356456963516a6c79744b674e39634c6e7862777475764c554b3765795250664a572f6b7364644f7a50385642426e696f6c596e524344326a724d525a38),
  (64, 0x6e424d325a5759776e586e7759654f4148562b5739744f6841496d7752774b462f393579417356776432317279484d4a426347483730714c61675a3754747974),
  (64, 0x2b2b714f2f362b4b41584a754b775a716a526c457453457a38675a51654666565967637753666f39366f534d417a56723756304c364853444c526e7062367878),
  (64, 0x6d625064714e6f6c3474514944415141426f34476b4d4947684d42384741315564497751594d426141464868446533616d66727a51723335434e2b7331664475),
  (64, 0x48415645384d41344741315564447745422f775145417749477744414d42674e5648524d4241663845416a41414d474147413155644877525a4d466377566142),
  (64, 0x546f46474754326830644841364c793930636e567a6447566b63325679646d6c6a5a584d75615735305a577775593239744c324e76626e526c626e517651314a),
  (64, 0x4d4c314e48574339426448526c6333526864476c76626c4a6c6347397964464e705a323570626d64445153356a636d77774451594a4b6f5a496876634e415145),
  (64, 0x4c425141446767474241476349746874634b394956527a347252712b5a4b452b376b35302f4f7855736d57386161764f7a4b62306943783037595139727a6935),
  (64, 0x6e553733744d45327947524c7a6853566946732f4c704661396c70514c364a4c316151776d4452373454785947424149693566344935544a6f4343457152487a),
  (64, 0x39316b7047365576796e32744c6d6e49644a62504534765976574c72745858664642535350443441666e372b332f58556767416c63376f4354697a4f66626274),
  (64, 0x4f466c59413467354b63596753314a325a41654d51716255645a73655a4363615a5a5a6e363574647165653855585a6c447678302b4e644f304c522b35704679),
  (64, 0x2b6a754d307757627535394d767a636d5458626a7369374859367a6435335971354b32343466774648525138654f42304957422b3450664d3746654141705a76),
  (64, 0x6c66716c4b4f6c4c635a4c327579566d7a526b79523579573732756f396d65685834344369504a32667365395936655174636645684d506b6d4858493031734e),
  (64, 0x2b4b775062704133392b784f7353746a6850394e3159316132745141566f2b7956674c67563248777337334663306f3377433738715045412b76326152732f42),
  (64, 0x65335a46446744796768632f316667552b37432b50366b62716434706f7962364957384b434a6278664d4a766b6f72644e4f674f5555786e64504845692f7462),
  (64, 0x2f5537754c6a4c4f6750413d3d300a06082a8648ce3d0403020347003044022010af30b3726e831e6119945f80b8283ec890b3b593016f9ea611d79c9a9576c3),
  (34, 0x022079e2e7ca1ac0894a0efdc097ab5286126eb7441fb82deefaefaa2084ce75dc57)]

/-- teerex/sgx-verify/test-data/ra_dump_cert_TEST7.der. -/
def cert7 : Bytes := unhex [
  (64, 0x30820c9d30820c44a003020102020101300a06082a8648ce3d04030230153113301106035504030c0a53756273747261544545301e170d323030343236313132),
  (64, 0x3733315a170d3230303732353131323733315a301f311d301b06035504030c145375627374726154454520657068656d6572616c3059301306072a8648ce3d02),
  (64, 0x0106082a8648ce3d030107034200041ddd0096b62f23f187d3a1352738b9c0b4b5c03f097b0542e2b23c761ec8f06ffad7ac0f8cf40ed89fd30c02f20e7fe6ca),
  (64, 0xf18b030dc23a20bcb6f8a5d778d7dea3820b7930820b7530820b7106096086480186f842010d04820b627b226964223a22323539323138313837343038373531),
  (64, 0x3436383836353939323032323135343733363436303639222c2274696d657374616d70223a22323032302d30342d32365431313a32373a33302e393438333937),
  (64, 0x222c2276657273696f6e223a332c22697376456e636c61766551756f7465537461747573223a22434f4e46494755524154494f4e5f4e4545444544222c22706c),
  (64, 0x6174666f726d496e666f426c6f62223a223135303230303635303030303038303030303045304530323034303138303037303030303030303030303030303030),
  (64, 0x30303030423030303030423030303030303032303030303030303030303030304241444532373641344636433033303246303043434443333439383732463636),
  (64, 0x30423242333738314138464538433635453344323446443445414531343135354534354546353034463737414442353841394136324530324346433337354338),
  (64, 0x3246464534353731383236313937374538433642463237304231424537343932383836222c22697376456e636c61766551756f7465426f6479223a2241674141),
  (64, 0x414b304c4141414c41416f4141414141414f4f6176506c514661572f6248303244765544586852392b2f5563746d4c56464b39516e54437931622f5144673446),
  (64, 0x4251482f414141414141414141414141414141414141414141414141414141414141414141414141414141414141414141414141414141414141414142774141),
  (64, 0x414141414141414841414141414141414150546533386e6c2f4d5345517a4d727962497859634e4b50443961615336762f62496f32796533424e6e5241414141),
  (64, 0x4141414141414141414141414141414141414141414141414141414141414141414141414141434431786e6e6665724b4648443275765971545864444138695a),
  (64, 0x32326b434435787737683338434d664f6e6741414141414141414141414141414141414141414141414141414141414141414141414141414141414141414141),
  (64, 0x41414141414141414141414141414141414141414141414141414141414141414141414141414141414141414141414141414141414141414141414141414141),
  (64, 0x41414141414141414141414141414141414141414141414141414141414141414141414141414141414141414141414141414141414141414141414141414141),
  (64, 0x414141414141414141414141414141414141414141414141414141414141414141414141414143576a7065646c423179584e6d71506576677153695756575175),
  (64, 0x42747157764c614572515a307a7152435677414141414141414141414141414141414141414141414141414141414141414141414141414141414141227d7c42),
  (64, 0x32627a6c7774424655566e327031455a366f4b624365306b2b386e4b526c674e504b3577446c644f656f446451696c76454e31374e3136327745656746515648),
  (64, 0x7a635931714c61626b31524a486d70634a55744247446942516d526c47715a464731694c53646b6549306733714341506b445a5139426c364d376f7246476f65),
  (64, 0x76514e584c4d2b625377446b6558574a6a686e712b6779694e525a325645303034632f504d4c7a2f76353641756836523354366b57687532677a766b736f5041),
  (64, 0x75634d634b5679467252586671757132615848564738532b41794a49794d64757046314233766d5568554232784572762b39676f32642b5546486d3058703253),
  (64, 0x4169414a7752637273624c323368546141354c7a374c32306d7972576d716a484f71392f646e76644535354e42426e6255715043756c39546558426a66746e4c),
  (64, 0x39706f6a58555565787546334f68703746775978513d3d7c4d4949456f54434341776d67417749424167494a414e4548646c30796f3743574d41304743537147),
  (64, 0x5349623344514542437755414d483478437a414a42674e5642415954416c56544d517377435159445651514944414a44515445554d424947413155454277774c),
  (64, 0x553246756447456751327868636d4578476a415942674e5642416f4d45556c756447567349454e76636e4276636d4630615739754d5441774c67594456515144),
  (64, 0x4443644a626e526c6243425452316767515852305a584e305958527062323467556d567762334a3049464e705a323570626d6367513045774868634e4d545978),
  (64, 0x4d5449794d446b7a4e6a55345768634e4d6a59784d5449774d446b7a4e6a5534576a42374d517377435159445651514745774a56557a454c4d416b4741315545),
  (64, 0x43417743513045784644415342674e564241634d43314e68626e526849454e7359584a684d526f77474159445651514b4442464a626e526c6243424462334a77),
  (64, 0x62334a6864476c76626a45744d437347413155454177776b535735305a57776755306459494546306447567a644746306157397549464a6c6347397964434254),
  (64, 0x615764756157356e4d494942496a414e42676b71686b6947397730424151454641414f43415138414d49494243674b434151454171586f74344f5a7570685238),
  (64, 0x6e75644672414669614778786b676d612f45732f42412b74626543545552313036414c31454e635741344658334b2b453942424c302f375835726a356e496758),
  (64, 0x2f522f317562686b4b5777396766715047334b654174496463762f75544f3179587635307671615076453143524368767a64532f5a45427151356f56764c5450),
  (64, 0x5a3356456963516a6c79744b674e39634c6e7862777475764c554b3765795250664a572f6b7364644f7a50385642426e696f6c596e524344326a724d525a386e),
  (64, 0x424d325a5759776e586e7759654f4148562b5739744f6841496d7752774b462f393579417356776432317279484d4a426347483730714c61675a37547479742b),
  (64, 0x2b714f2f362b4b41584a754b775a716a526c457453457a38675a51654666565967637753666f39366f534d417a56723756304c364853444c526e70623678786d),
  (64, 0x625064714e6f6c3474514944415141426f34476b4d4947684d42384741315564497751594d426141464868446533616d66727a51723335434e2b733166447548),
  (64, 0x415645384d41344741315564447745422f775145417749477744414d42674e5648524d4241663845416a41414d474147413155644877525a4d46637756614254),
  (64, 0x6f46474754326830644841364c793930636e567a6447566b63325679646d6c6a5a584d75615735305a577775593239744c324e76626e526c626e517651314a4d),
  (64, 0x4c314e48574339426448526c6333526864476c76626c4a6c6347397964464e705a323570626d64445153356a636d77774451594a4b6f5a496876634e4151454c),
  (64, 0x425141446767474241476349746874634b394956527a347252712b5a4b452b376b35302f4f7855736d57386161764f7a4b62306943783037595139727a69356e),
  (64, 0x553733744d45327947524c7a6853566946732f4c704661396c70514c364a4c316151776d4452373454785947424149693566344935544a6f4343457152487a39),
  (64, 0x316b7047365576796e32744c6d6e49644a62504534765976574c72745858664642535350443441666e372b332f58556767416c63376f4354697a4f666262744f),
  (64, 0x466c59413467354b63596753314a325a41654d51716255645a73655a4363615a5a5a6e363574647165653855585a6c447678302b4e644f304c522b357046792b),
  (64, 0x6a754d307757627535394d767a636d5458626a7369374859367a6435335971354b32343466774648525138654f42304957422b3450664d3746654141705a766c),
  (64, 0x66716c4b4f6c4c635a4c327579566d7a526b79523579573732756f396d65685834344369504a32667365395936655174636645684d506b6d4858493031734e2b),
  (64, 0x4b775062704133392b784f7353746a6850394e3159316132745141566f2b7956674c67563248777337334663306f3377433738715045412b76326152732f4265),
  (64, 0x335a46446744796768632f316667552b37432b50366b62716434706f7962364957384b434a6278664d4a766b6f72644e4f674f5555786e64504845692f74622f),
  (64, 0x5537754c6a4c4f6750413d3d300a06082a8648ce3d0403020347003044022025e1c915761edc0f2094edd0c371893d66abf4fd8db040f1a9b862be38f30b4b02),
  (33, 0x201e99ff2713b11f74091432e0f7357fec47599f49a9fe721318a01f731a217ebe)]

/-- teerex/sgx-verify/test-data/ra_dump_cert_TEST8_PRODUCTION.der. -/
def cert8 : Bytes := unhex [
  (64, 0x30820d3530820cdca003020102020101300a06082a8648ce3d04030230153113301106035504030c0a496e7465677269746565301e170d323131303133323032),
  (64, 0x3530305a170d3232303131313230323530305a301f311d301b06035504030c14496e746567726974656520657068656d6572616c3059301306072a8648ce3d02),
  (64, 0x0106082a8648ce3d03010703420004b607d72c86ecce99bf2bac2a3921fab69bf8aa3c0d283a86e34003dd2b9d1f9a951f28493b47320e923b2b965fd567a611),
  (64, 0x7c3ae34a8b01ea508705a7cfd1c216a3820c1130820c0d30820c0906096086480186f842010d04820bfa7b226964223a22313936313532363231323031353437),
  (64, 0x393134353131383035303130363035363831393137323935222c2274696d657374616d70223a22323032312d31302d31335432303a32353a30302e3633353232),
  (64, 0x32222c2276657273696f6e223a342c2261647669736f727955524c223a2268747470733a2f2f73656375726974792d63656e7465722e696e74656c2e636f6d22),
  (64, 0x2c2261647669736f7279494473223a5b22494e54454c2d53412d3030313631222c22494e54454c2d53412d3030323139222c22494e54454c2d53412d30303238),
  (64, 0x39222c22494e54454c2d53412d3030333334225d2c22697376456e636c61766551756f7465537461747573223a22434f4e46494755524154494f4e5f414e445f),
  (64, 0x53575f48415244454e494e475f4e4545444544222c22706c6174666f726d496e666f426c6f62223a223135303230303635303030303038303030303131313130),
  (64, 0x32303430313830303730303030303030303030303030303030303030433030303030433030303030303032303030303030303030303030304331344335453137),
  (64, 0x34414232314542343936413944324245443244384433413846313145314342343646384546393539464144314230364439443541314343454136453933413941),
  (64, 0x4141343335334641354444333734363944374333354637443233433335364538314433333836434343373731383842454642363933303845324642222c226973),
  (64, 0x76456e636c61766551756f7465426f6479223a22416741414142514d4141414d414177414141414141426d644b6173743373784359755364514450793241336c),
  (64, 0x47595743564f6854522b415076515a51526b71394552454642662b41414141414141414141414141414141414141414141414141414141414141414141414141),
  (64, 0x41414141414141414141414141414141414141414251414141414141414141484141414141414141414c7a3261722f47732b386c6e703750354d2b4e396d656e),
  (64, 0x39615647556c3375466f496e51624f50626d42514141414141414141414141414141414141414141414141414141414141414141414141414141414141414152),
  (64, 0x663558325877617674585a4c56794657754c556c78694d4e743961787955364f766266376f476a30364141414141414141414141414141414141414141414141),
  (64, 0x41414141414141414141414141414141414141414141414141414141414141414141414141414141414141414141414141414141414141414141414141414141),
  (64, 0x41414141414141414141414141414141414141414141414141414141414141414141414141414141414141414141414141414141414141414141414141414141),
  (64, 0x41414141414141414141414141414141414141414141414141414141414141414141414141414141414141414141414141414141414141414141414141414132),
  (64, 0x73482f4369776e3544646c71426e784c4147305379737277664e62722f2f6b766836373270775547344141414141414141414141414141414141414141414141),
  (64, 0x4141414141414141414141414141414141414141227d7c53346e6f63716a546973636c5452305a78644e4b367378546a7a4c67356b414e41645752456e546252),
  (64, 0x666a3477564b675351756c6c7a6b35566a4a34764e7370445256547266594c7a50476b7a7756314b436b506c7942776e626170516c37372f455a68646c63564d),
  (64, 0x2f71614a7877467a715442415774323136635569727a36306c575a786c4964736345754e6a634150566b795763536633706c3667436962713143317634637176),
  (64, 0x30627a6d2f596243353252346b336f6b3973312b42412b2f3938423442456e4d4347314b316f6f30764857783738663065776d3046475a6a566c584744695a6f),
  (64, 0x366c56496f6c4c543769304c416d79426271694636576a467134536869563939726c2f7541754b6755642b724a3638314a6375546a696e6f3877386556534950),
  (64, 0x3642346f7539432f6c374b36575a674f6a73616d43767146726843584f3561594c515a3046626c484f627351513d3d7c4d4949456f54434341776d6741774942),
  (64, 0x4167494a414e4548646c30796f3743574d413047435371475349623344514542437755414d483478437a414a42674e5642415954416c56544d51737743515944),
  (64, 0x5651514944414a44515445554d424947413155454277774c553246756447456751327868636d4578476a415942674e5642416f4d45556c756447567349454e76),
  (64, 0x636e4276636d4630615739754d5441774c675944565151444443644a626e526c6243425452316767515852305a584e305958527062323467556d567762334a30),
  (64, 0x49464e705a323570626d6367513045774868634e4d5459784d5449794d446b7a4e6a55345768634e4d6a59784d5449774d446b7a4e6a5534576a42374d517377),
  (64, 0x435159445651514745774a56557a454c4d416b474131554543417743513045784644415342674e564241634d43314e68626e526849454e7359584a684d526f77),
  (64, 0x474159445651514b4442464a626e526c6243424462334a7762334a6864476c76626a45744d437347413155454177776b535735305a5777675530645949454630),
  (64, 0x6447567a644746306157397549464a6c6347397964434254615764756157356e4d494942496a414e42676b71686b6947397730424151454641414f4341513841),
  (64, 0x4d49494243674b434151454171586f74344f5a75706852386e75644672414669614778786b676d612f45732f42412b74626543545552313036414c31454e6357),
  (64, 0x41344658334b2b453942424c302f375835726a356e4967582f522f317562686b4b5777396766715047334b654174496463762f75544f31795876353076716150),
  (64, 0x76453143524368767a64532f5a45427151356f56764c54505a3356456963516a6c79744b674e39634c6e7862777475764c554b3765795250664a572f6b736464),
  (64, 0x4f7a50385642426e696f6c596e524344326a724d525a386e424d325a5759776e586e7759654f4148562b5739744f6841496d7752774b462f3935794173567764),
  (64, 0x32317279484d4a426347483730714c61675a37547479742b2b714f2f362b4b41584a754b775a716a526c457453457a38675a51654666565967637753666f3936),
  (64, 0x6f534d417a56723756304c364853444c526e70623678786d625064714e6f6c3474514944415141426f34476b4d4947684d42384741315564497751594d426141),
  (64, 0x464868446533616d66727a51723335434e2b733166447548415645384d41344741315564447745422f775145417749477744414d42674e5648524d4241663845),
  (64, 0x416a41414d474147413155644877525a4d466377566142546f46474754326830644841364c793930636e567a6447566b63325679646d6c6a5a584d7561573530),
  (64, 0x5a577775593239744c324e76626e526c626e517651314a4d4c314e48574339426448526c6333526864476c76626c4a6c6347397964464e705a323570626d6444),
  (64, 0x5153356a636d77774451594a4b6f5a496876634e4151454c425141446767474241476349746874634b394956527a347252712b5a4b452b376b35302f4f785573),
  (64, 0x6d57386161764f7a4b62306943783037595139727a69356e553733744d45327947524c7a6853566946732f4c704661396c70514c364a4c316151776d44523734),
  (64, 0x54785947424149693566344935544a6f4343457152487a39316b7047365576796e32744c6d6e49644a62504534765976574c7274585866464253535044344166),
  (64, 0x6e372b332f58556767416c63376f4354697a4f666262744f466c59413467354b63596753314a325a41654d51716255645a73655a4363615a5a5a6e3635746471),
  (64, 0x65653855585a6c447678302b4e644f304c522b357046792b6a754d307757627535394d767a636d5458626a7369374859367a6435335971354b32343466774648),
  (64, 0x525138654f42304957422b3450664d3746654141705a766c66716c4b4f6c4c635a4c327579566d7a526b79523579573732756f396d65685834344369504a3266),
  (64, 0x7365395936655174636645684d506b6d4858493031734e2b4b775062704133392b784f7353746a6850394e3159316132745141566f2b7956674c675632487773),
  (64, 0x37334663306f3377433738715045412b76326152732f4265335a46446744796768632f316667552b37432b50366b62716434706f7962364957384b434a627866),
  (64, 0x4d4a766b6f72644e4f674f5555786e64504845692f74622f5537754c6a4c4f6750413d3d300a06082a8648ce3d04030203470030440220682f38824750ff5df7),
  (57, 0x5f8d4912b81f6f94ddfbc2ff598e9b1fec2cd17537f605022022d0bc83ef8210637048cce5cf54b9db43b95bb4a4c5bbffc2f52f4097da8c0e)]

/-- teerex/sgx-verify/test-data/enclave-signing-pubkey-TEST4.bin. -/
def signer4 : Bytes := unhex [
  (32, 0x93cbb905e945dd817dfa86ff52e1261e7ff6956cf8b76e05e936090aa295138c)]

/-- teerex/sgx-verify/test-data/enclave-signing-pubkey-TEST5.bin. -/
def signer5 : Bytes := unhex [
  (32, 0x93cbb905e945dd817dfa86ff52e1261e7ff6956cf8b76e05e936090aa295138c)]

/-- teerex/sgx-verify/test-data/enclave-signing-pubkey-TEST7.bin. -/
def signer7 : Bytes := unhex [
  (32, 0x968e979d941d725cd9aa3debe0a9289655642e06da96bcb684ad0674cea44257)]

/-- teerex/sgx-verify/test-data/enclave-signing-pubkey-TEST8-PRODUCTION.bin. -/
def signer8 : Bytes := unhex [
  (32, 0x36b07fc28b09f90dd96a067c4b006d12cacaf07cd6ebfff92f87aef6a70506e0)]

/-- `CERT_WRONG_PLATFORM_BLOB`, teerex/sgx-verify/src/tests.rs L59. -/
def CERT_WRONG_PLATFORM_BLOB : Bytes := unhex [
  (64, 0x30820c8c30820c32a003020102020101300a06082a8648ce3d04030230123110300e06035504030c074d657361544545301e170d313930363137313234363039),
  (64, 0x5a170d3139303931353132343630395a30123110300e06035504030c074d6573615445453059301306072a8648ce3d020106082a8648ce3d0301070342000452),
  (64, 0x54161620ef5fd8e7c3b7031dd63a1f46e3f26221a92f8bd4828fd1ff5b9c97bcf237b82c4c8a01b0723b3ba983dc869f1d2579f43b49e459c83027244b5bd6a3),
  (64, 0x820b7730820b7330820b6f06096086480186f842010d04820b607b226964223a2231313730373737353036383232363338373735393336343634313230303637),
  (64, 0x3833363830383438222c2274696d657374616d70223a22323031392d30362d31375431323a34363a30342e303032303636222c2276657273696f6e223a332c22),
  (64, 0x697376456e636c61766551756f7465537461747573223a2247524f55505f4f55545f4f465f44415445222c22706c6174666f726d496e666f426c6f62223a2231),
  (64, 0x36303230303635303430303039303030303039303930323034303138303030303030303030303030303030303030303030303830303030303930303030303030),
  (64, 0x32303030303030303030303030304234303141333535423331334643393339423446343841353433343943393134413332413341453243343837314246414246),
  (64, 0x32324539363043353536333538363946433636323933413344394232443538454439364341363230423635443636394134343443383032393133313445463639),
  (64, 0x3145383936463636343331374346383043222c22697376456e636c61766551756f7465426f6479223a22416741414145414c414141494141634141414141414f),
  (64, 0x453677676f484b735a736e56575372735758396b6b79306b5774394b347863616e30665139393643742b43416a2f2f7747414141414141414141414141414141),
  (64, 0x41414141414141414141414141414141414141414141414141414141414141414141414141414141414142774141414141414141414841414141414141414146),
  (64, 0x4a4a59496250566f74394e7a52436a57327a392b6b2b394b38427348514b7a564d45484f523134684e6241414141414141414141414141414141414141414141),
  (64, 0x4141414141414141414141414141414141414141434431786e6e6665724b4648443275765971545864444138695a32326b434435787737683338434d664f6e67),
  (64, 0x41414141414141414141414141414141414141414141414141414141414141414141414141414141414141414141414141414141414141414141414141414141),
  (64, 0x41414141414141414141414141414141414141414141414141414141414141414141414141414141414141414141414141414141414141414141414141414141),
  (64, 0x41414141414141414141414141414141414141414141414141414141414141414141414141414141414141414141414141414141414141414141414141414141),
  (64, 0x4141414141414141414141414141414141414141425356425957494f3966324f664474774d64316a6f6652755079596947704c347655676f2f522f3175636c37),
  (64, 0x7a794e37677354496f42734849374f366d4433496166485356353944744a35466e494d43636b53317657227d7c45625046482f54685561532f644d5a6f444b43),
  (64, 0x3545676d645558554f524674517a463439556d69315035356f65455372654a6155766d413073672f415453546e357432652b65365a6f42514955624c486a6357),
  (64, 0x4c4d4c7a4b34704a4a556548686f6b37456656676f51333738692b65475239763749434e44475837613172726f4f653073314f4b78776f2f30686964324b5776),
  (64, 0x7441554276663142446b716c4879303235494f6958576858464c6b622f715177555a44577a725634646f6f4d6658356866714a50693171397331385373644c50),
  (64, 0x6d68724742686568396b65617a6543523968694c68524f3954626e566752397a4a6b3433535058572b70486b624e6967572b3253547056416935756757615377),
  (64, 0x424f644b31315a6a61455531706156497078516e6c57314436646a315a63334c69624d482b6c79395a4772625974754a6b733465526e6a5068726f5058786c4a),
  (64, 0x5770513d3d7c4d4949456f54434341776d67417749424167494a414e4548646c30796f3743574d413047435371475349623344514542437755414d483478437a),
  (64, 0x414a42674e5642415954416c56544d517377435159445651514944414a44515445554d424947413155454277774c553246756447456751327868636d4578476a),
  (64, 0x415942674e5642416f4d45556c756447567349454e76636e4276636d4630615739754d5441774c675944565151444443644a626e526c62434254523167675158),
  (64, 0x52305a584e305958527062323467556d567762334a3049464e705a323570626d6367513045774868634e4d5459784d5449794d446b7a4e6a55345768634e4d6a),
  (64, 0x59784d5449774d446b7a4e6a5534576a42374d517377435159445651514745774a56557a454c4d416b474131554543417743513045784644415342674e564241),
  (64, 0x634d43314e68626e526849454e7359584a684d526f77474159445651514b4442464a626e526c6243424462334a7762334a6864476c76626a45744d4373474131),
  (64, 0x55454177776b535735305a57776755306459494546306447567a644746306157397549464a6c6347397964434254615764756157356e4d494942496a414e4267),
  (64, 0x6b71686b6947397730424151454641414f43415138414d49494243674b434151454171586f74344f5a75706852386e75644672414669614778786b676d612f45),
  (64, 0x732f42412b74626543545552313036414c31454e635741344658334b2b453942424c302f375835726a356e4967582f522f317562686b4b577739676671504733),
  (64, 0x4b654174496463762f75544f3179587635307671615076453143524368767a64532f5a45427151356f56764c54505a3356456963516a6c79744b674e39634c6e),
  (64, 0x7862777475764c554b3765795250664a572f6b7364644f7a50385642426e696f6c596e524344326a724d525a386e424d325a5759776e586e7759654f4148562b),
  (64, 0x5739744f6841496d7752774b462f393579417356776432317279484d4a426347483730714c61675a37547479742b2b714f2f362b4b41584a754b775a716a526c),
  (64, 0x457453457a38675a51654666565967637753666f39366f534d417a56723756304c364853444c526e70623678786d625064714e6f6c3474514944415141426f34),
  (64, 0x476b4d4947684d42384741315564497751594d426141464868446533616d66727a51723335434e2b733166447548415645384d41344741315564447745422f77),
  (64, 0x5145417749477744414d42674e5648524d4241663845416a41414d474147413155644877525a4d466377566142546f46474754326830644841364c793930636e),
  (64, 0x567a6447566b63325679646d6c6a5a584d75615735305a577775593239744c324e76626e526c626e517651314a4d4c314e48574339426448526c633352686447),
  (64, 0x6c76626c4a6c6347397964464e705a323570626d64445153356a636d77774451594a4b6f5a496876634e4151454c425141446767474241476349746874634b39),
  (64, 0x4956527a347252712b5a4b452b376b35302f4f7855736d57386161764f7a4b62306943783037595139727a69356e553733744d45327947524c7a685356694673),
  (64, 0x2f4c704661396c70514c364a4c316151776d4452373454785947424149693566344935544a6f4343457152487a39316b7047365576796e32744c6d6e49644a62),
  (64, 0x504534765976574c72745858664642535350443441666e372b332f58556767416c63376f4354697a4f666262744f466c59413467354b63596753314a325a4165),
  (64, 0x4d51716255645a73655a4363615a5a5a6e363574647165653855585a6c447678302b4e644f304c522b357046792b6a754d307757627535394d767a636d545862),
  (64, 0x6a7369374859367a6435335971354b32343466774648525138654f42304957422b3450664d3746654141705a766c66716c4b4f6c4c635a4c327579566d7a526b),
  (64, 0x79523579573732756f396d65685834344369504a32667365395936655174636645684d506b6d4858493031734e2b4b775062704133392b784f7353746a685039),
  (64, 0x4e3159316132745141566f2b7956674c67563248777337334663306f3377433738715045412b76326152732f4265335a46446744796768632f316667552b3743),
  (64, 0x2b50366b62716434706f7962364957384b434a6278664d4a766b6f72644e4f674f5555786e64504845692f74622f5537754c6a4c4f6750413d3d300a06082a86),
  (64, 0x48ce3d0403020348003045022100ae3606094053798f8e639ddc695e45782a927ddc47154197d7d7d1cc78e01e0802201551a04254de277eecbd0237d3d883f7),
  (16, 0xe65ac548b444f7e20da7e45e66108570)]

/-- `CERT_FAKE_QUOTE_STATUS`, teerex/sgx-verify/src/tests.rs L65. -/
def CERT_FAKE_QUOTE_STATUS : Bytes := unhex [
  (64, 0x30820c8c30820c32a003020102020101300a06082a8648ce3d04030230123110300e06035504030c074d657361544545301e170d313930363137313234363039),
  (64, 0x5a170d3139303931353132343630395a30123110300e06035504030c074d6573615445453059301306072a8648ce3d020106082a8648ce3d0301070342000452),
  (64, 0x54161620ef5fd8e7c3b7031dd63a1f46e3f26221a92f8bd4828fd1ff5b9c97bcf237b82c4c8a01b0723b3ba983dc869f1d2579f43b49e459c83027244b5bd6a3),
  (64, 0x820b7730820b7330820b6f06096086480186f842010d04820b607b226964223a2231313730373737353036383232363338373735393336343634313230303637),
  (64, 0x3833363830383438222c2274696d657374616d70223a22323031392d30362d31375431323a34363a30342e303032303636222c2276657273696f6e223a332c22),
  (64, 0x697376456e636c61766551756f7465537461747573223a224f4b222c22706c6174666f726d496e666f426c6f62223a2231363032303036353034303030393030),
  (64, 0x30303039303930323034303138303030303030303030303030303030303030303030303830303030303930303030303030323030303030303030303030303042),
  (64, 0x34303141333535423331334643393339423446343841353433343943393134413332413341453243343837314246414246323245393630433535363335383639),
  (64, 0x46433636323933413344394232443538454439364341363230423635443636394134343443383032393133313445463639314538393646363634333137434638),
  (64, 0x3043222c22697376456e636c61766551756f7465426f6479223a22416741414145414c414141494141634141414141414f453677676f484b735a736e56575372),
  (64, 0x735758396b6b79306b5774394b347863616e30665139393643742b43416a2f2f7747414141414141414141414141414141414141414141414141414141414141),
  (64, 0x414141414141414141414141414141414141414141414141414141427741414141414141414148414141414141414141464a4a59496250566f74394e7a52436a),
  (64, 0x57327a392b6b2b394b38427348514b7a564d45484f523134684e6241414141414141414141414141414141414141414141414141414141414141414141414141),
  (64, 0x4141414141434431786e6e6665724b4648443275765971545864444138695a32326b434435787737683338434d664f6e67414141414141414141414141414141),
  (64, 0x41414141414141414141414141414141414141414141414141414141414141414141414141414141414141414141414141414141414141414141414141414141),
  (64, 0x41414141414141414141414141414141414141414141414141414141414141414141414141414141414141414141414141414141414141414141414141414141),
  (64, 0x41414141414141414141414141414141414141414141414141414141414141414141414141414141414141414141414141414141414141414141414141414141),
  (64, 0x4141414141425356425957494f3966324f664474774d64316a6f6652755079596947704c347655676f2f522f3175636c377a794e37677354496f42734849374f),
  (64, 0x366d4433496166485356353944744a35466e494d43636b53317657227d7c45625046482f54685561532f644d5a6f444b433545676d645558554f524674517a46),
  (64, 0x3439556d69315035356f65455372654a6155766d413073672f415453546e357432652b65365a6f42514955624c486a63574c4d4c7a4b34704a4a556548686f6b),
  (64, 0x37456656676f51333738692b65475239763749434e44475837613172726f4f653073314f4b78776f2f30686964324b57767441554276663142446b716c487930),
  (64, 0x3235494f6958576858464c6b622f715177555a44577a725634646f6f4d6658356866714a50693171397331385373644c506d68724742686568396b65617a6543),
  (64, 0x523968694c68524f3954626e566752397a4a6b3433535058572b70486b624e6967572b3253547056416935756757615377424f644b31315a6a61455531706156),
  (64, 0x497078516e6c57314436646a315a63334c69624d482b6c79395a4772625974754a6b733465526e6a5068726f5058786c4a5770513d3d7c4d4949456f54434341),
  (64, 0x776d67417749424167494a414e4548646c30796f3743574d413047435371475349623344514542437755414d483478437a414a42674e5642415954416c56544d),
  (64, 0x517377435159445651514944414a44515445554d424947413155454277774c553246756447456751327868636d4578476a415942674e5642416f4d45556c7564),
  (64, 0x47567349454e76636e4276636d4630615739754d5441774c675944565151444443644a626e526c6243425452316767515852305a584e30595852706232346755),
  (64, 0x6d567762334a3049464e705a323570626d6367513045774868634e4d5459784d5449794d446b7a4e6a55345768634e4d6a59784d5449774d446b7a4e6a553457),
  (64, 0x6a42374d517377435159445651514745774a56557a454c4d416b474131554543417743513045784644415342674e564241634d43314e68626e526849454e7359),
  (64, 0x584a684d526f77474159445651514b4442464a626e526c6243424462334a7762334a6864476c76626a45744d437347413155454177776b535735305a57776755),
  (64, 0x306459494546306447567a644746306157397549464a6c6347397964434254615764756157356e4d494942496a414e42676b71686b6947397730424151454641),
  (64, 0x414f43415138414d49494243674b434151454171586f74344f5a75706852386e75644672414669614778786b676d612f45732f42412b74626543545552313036),
  (64, 0x414c31454e635741344658334b2b453942424c302f375835726a356e4967582f522f317562686b4b5777396766715047334b654174496463762f75544f317958),
  (64, 0x7635307671615076453143524368767a64532f5a45427151356f56764c54505a3356456963516a6c79744b674e39634c6e7862777475764c554b376579525066),
  (64, 0x4a572f6b7364644f7a50385642426e696f6c596e524344326a724d525a386e424d325a5759776e586e7759654f4148562b5739744f6841496d7752774b462f39),
  (64, 0x3579417356776432317279484d4a426347483730714c61675a37547479742b2b714f2f362b4b41584a754b775a716a526c457453457a38675a51654666565967),
  (64, 0x637753666f39366f534d417a56723756304c364853444c526e70623678786d625064714e6f6c3474514944415141426f34476b4d4947684d4238474131556449),
  (64, 0x7751594d426141464868446533616d66727a51723335434e2b733166447548415645384d41344741315564447745422f775145417749477744414d42674e5648),
  (64, 0x524d4241663845416a41414d474147413155644877525a4d466377566142546f46474754326830644841364c793930636e567a6447566b63325679646d6c6a5a),
  (64, 0x584d75615735305a577775593239744c324e76626e526c626e517651314a4d4c314e48574339426448526c6333526864476c76626c4a6c6347397964464e705a),
  (64, 0x323570626d64445153356a636d77774451594a4b6f5a496876634e4151454c425141446767474241476349746874634b394956527a347252712b5a4b452b376b),
  (64, 0x35302f4f7855736d57386161764f7a4b62306943783037595139727a69356e553733744d45327947524c7a6853566946732f4c704661396c70514c364a4c3161),
  (64, 0x51776d4452373454785947424149693566344935544a6f4343457152487a39316b7047365576796e32744c6d6e49644a62504534765976574c72745858664642),
  (64, 0x535350443441666e372b332f58556767416c63376f4354697a4f666262744f466c59413467354b63596753314a325a41654d51716255645a73655a4363615a5a),
  (64, 0x5a6e363574647165653855585a6c447678302b4e644f304c522b357046792b6a754d307757627535394d767a636d5458626a7369374859367a6435335971354b),
  (64, 0x32343466774648525138654f42304957422b3450664d3746654141705a766c66716c4b4f6c4c635a4c327579566d7a526b79523579573732756f396d65685834),
  (64, 0x344369504a32667365395936655174636645684d506b6d4858493031734e2b4b775062704133392b784f7353746a6850394e3159316132745141566f2b795667),
  (64, 0x4c67563248777337334663306f3377433738715045412b76326152732f4265335a46446744796768632f316667552b37432b50366b62716434706f7962364957),
  (64, 0x384b434a6278664d4a766b6f72644e4f674f5555786e64504845692f74622f5537754c6a4c4f6750413d3d300a06082a8648ce3d0403020348003045022100ae),
  (64, 0x3606094053798f8e639ddc695e45782a927ddc47154197d7d7d1cc78e01e0802201551a04254de277eecbd0237d3d883f7e65ac548b444f7e20da7e45e661085),
  (1, 0x70)]

/-- `CERT_WRONG_SIG`, teerex/sgx-verify/src/tests.rs L71. -/
def CERT_WRONG_SIG : Bytes := unhex [
  (64, 0x30820c8c30820c32a003020102020101300a06082a8648ce3d04030230123110300e06035504030c074d657361544545301e170d313930363137313234363039),
  (64, 0x5a170d3139303931353132343630395a30123110300e06035504030c074d6573615445453059301306072a8648ce3d020106082a8648ce3d0301070342000452),
  (64, 0x54161620ef5fd8e7c3b7031dd63a1f46e3f26221a92f8bd4828fd1ff5b9c97bcf237b82c4c8a01b0723b3ba983dc869f1d2579f43b49e459c83027244b5bd6a3),
  (64, 0x820b7730820b7330820b6f06096086480186f842010d04820b607b226964223a2231313730373737353036383232363338373735393336343634313230303637),
  (64, 0x3833363830383438222c2274696d657374616d70223a22323031392d30362d31375431323a34363a30342e303032303636222c2276657273696f6e223a332c22),
  (64, 0x697376456e636c61766551756f7465537461747573223a2247524f55505f4f55545f4f465f44415445222c22706c6174666f726d496e666f426c6f62223a2231),
  (64, 0x36303230303635303430303039303030303039303930323034303138303030303030303030303030303030303030303030303830303030303930303030303030),
  (64, 0x32303030303030303030303030304234303141333535423331334643393339423446343841353433343943393134413332413341453243343837314246414246),
  (64, 0x32324539363043353536333538363946433636323933413344394232443538454439364341363230423635443636394134343443383032393133313445463639),
  (64, 0x3145383936463636343331374346383043222c22697376456e636c61766551756f7465426f6479223a22416741414145414c414141494141634141414141414f),
  (64, 0x453677676f484b735a736e56575372735758396b6b79306b5774394b347863616e30665139393643742b43416a2f2f7747414141414141414141414141414141),
  (64, 0x41414141414141414141414141414141414141414141414141414141414141414141414141414141414142774141414141414141414841414141414141414146),
  (64, 0x4a4a59496250566f74394e7a52436a57327a392b6b2b394b38427348514b7a564d45484f523134684e6241414141414141414141414141414141414141414141),
  (64, 0x4141414141414141414141414141414141414141434431786e6e6665724b4648443275765971545864444138695a32326b434435787737683338434d664f6e67),
  (64, 0x41414141414141414141414141414141414141414141414141414141414141414141414141414141414141414141414141414141414141414141414141414141),
  (64, 0x41414141414141414141414141414141414141414141414141414141414141414141414141414141414141414141414141414141414141414141414141414141),
  (64, 0x41414141414141414141414141414141414141414141414141414141414141414141414141414141414141414141414141414141414141414141414141414141),
  (64, 0x4141414141414141414141414141414141414141425356425957494f3966324f664474774d64316a6f6652755079596947704c347655676f2f522f3175636c37),
  (64, 0x7a794e37677354496f42734849374f366d4433496166485356353944744a35466e494d43636b53317657227d7c45625046482f54685561532f644d5a6f444b43),
  (64, 0x3545676d645558554f524674517a463439556d69315035356f65455372654a6155766d413073672f415453546e357432652b65365a6f42514955624c486a6357),
  (64, 0x4c4d4c7a4b34704a4a556548686f6b37456656676f51333738692b65475239763749434e44475837613172726f4f653073314f4b78776f2f30686964324b5776),
  (64, 0x7441554276663142446b716c4879303235494f6958576858464c6b622f715177555a44577a725634646f6f4d6658356866714a50693171397331385373644c50),
  (64, 0x6d68724742686568396b65617a6543523968694c68524f3954626e566752397a4a6b3433535058572b70486b624e6967572b3253547056416935756757615377),
  (64, 0x424f644b31315a6a61455531706156497078516e6c57314436646a315a63334c69624d482b6c79395a4772625974754a6b733465526e6a5068726f5058786c4a),
  (64, 0x5770513d3d7c4d4949456f54434341776d67417749424167494a414e4548646c30796f3743574d413047435371475349623344514542437755414d483478437a),
  (64, 0x414a42674e5642415954416c56544d517377435159445651514944414a44515445554d424947413155454277774c553246756447456751327868636d4578476a),
  (64, 0x415942674e5642416f4d45556c756447567349454e76636e4276636d4630615739754d5441774c675944565151444443644a626e526c62434254523167675158),
  (64, 0x52305a584e305958527062323467556d567762334a3049464e705a323570626d6367513045774868634e4d5459784d5449794d446b7a4e6a55345768634e4d6a),
  (64, 0x59784d5449774d446b7a4e6a5534576a42374d517377435159445651514745774a56557a454c4d416b474131554543417743513045784644415342674e564241),
  (64, 0x634d43314e68626e526849454e7359584a684d526f77474159445651514b4442464a626e526c6243424462334a7762334a6864476c76626a45744d4373474131),
  (64, 0x55454177776b535735305a57776755306459494546306447567a644746306157397549464a6c6347397964434254615764756157356e4d494942496a414e4267),
  (64, 0x6b71686b6947397730424151454641414f43415138414d49494243674b434151454171586f74344f5a75706852386e75644672414669614778786b676d612f45),
  (64, 0x732f42412b74626543545552313036414c31454e635741344658334b2b453942424c302f375835726a356e4967582f522f317562686b4b577739676671504733),
  (64, 0x4b654174496463762f75544f3179587635307671615076453143524368767a64532f5a45427151356f56764c54505a3356456963516a6c79744b674e39634c6e),
  (64, 0x7862777475764c554b3765795250664a572f6b7364644f7a50385642426e696f6c596e524344326a724d525a386e424d325a5759776e586e7759654f4148562b),
  (64, 0x5739744f6841496d7752774b462f393579417356776432317279484d4a426347483730714c61675a37547479742b2b714f2f362b4b41584a754b775a716a526c),
  (64, 0x457453457a38675a51654666565967637753666f39366f534d417a56723756304c364853444c526e70623678786d625064714e6f6c3474514944415141426f34),
  (64, 0x476b4d4947684d42384741315564497751594d426141464868446533616d66727a51723335434e2b733166447548415645384d41344741315564447745422f77),
  (64, 0x5145417749477744414d42674e5648524d4241663845416a41414d474147413155644877525a4d466377566142546f46474754326830644841364c793930636e),
  (64, 0x567a6447566b63325679646d6c6a5a584d75615735305a577775593239744c324e76626e526c626e517651314a4d4c314e48574339426448526c633352686447),
  (64, 0x6c76626c4a6c6347397964464e705a323570626d64445153356a636d77774451594a4b6f5a496876634e4151454c425141446767474241476349746874634b39),
  (64, 0x4956527a347252712b5a4b452b376b35302f4f7855736d57386161764f7a4b62306943783037595139727a69356e553733744d45327947524c7a685356694673),
  (64, 0x2f4c704661396c70514c364a4c316151776d4452373454785947424149693566344935544a6f4343456152487a39316b7047365576796e32744c6d6e49644a62),
  (64, 0x504534765976574c72745858664642535350443441666e372b332f58556767416c63376f4354697a4f666262744f466c59413467354b63596753314a325a4165),
  (64, 0x4d51716255645a73655a4363615a5a5a6e363574647165653855585a6c447678302b4e644f304c522b357046792b6a754d307757627535394d767a636d545862),
  (64, 0x6a7369374859367a6435335971354b32343466774648525138654f42304957422b3450664d3746654141705a766c66716c4b4f6c4c635a4c327579566d7a526b),
  (64, 0x79523579573732756f396d65685834344369504a32667365395936655174636645684d506b6d4858493031734e2b4b775062704133392b784f7353746a685039),
  (64, 0x4e3159316132745141566f2b7956674c67563248777337334663306f3377433738715045412b76326152732f4265335a46446744796768632f316667552b3743),
  (64, 0x2b50366b62716434706f7962364957384b434a6278664d4a766b6f72644e4f674f5555786e64504845692f74622f5537754c6a4c4f6750413d3d300a06082a86),
  (64, 0x48ce3d0403020348003045022100ae3606094053798f8e639ddc695e45782a927ddc47154197d7d7d1cc78e01e0802201551a04254de277eecbd0237d3d883f7),
  (16, 0xe65ac548b444f7e20da7e45e66108570)]

/-- `CERT_TOO_SHORT1`, teerex/sgx-verify/src/tests.rs L77. -/
def CERT_TOO_SHORT1 : Bytes := unhex [
  (64, 0x30820c8c30820c32a003020102020101300a06082a8648ce3d04030230123110300e06035504030c074d657361544545301e170d313930363137313234363039),
  (64, 0x5a170d3139303931353132343630395a30123110300e06035504030c074d6573615445453059301306072a8648ce3d020106082a8648ce3d0301070342000452),
  (64, 0x54161620ef5fd8e7c3b7031dd63a1f46e3f26221a92f8bd4828fd1ff5b9c97bcf237b82c4c8a01b0723b3ba983dc869f1d2579f43b49e459c83027244b5bd6a3),
  (64, 0x820b7730820b7330820b6f06096086480186f842010d04820b607b226964223a2231313730373737353036383232363338373735393336343634313230303637),
  (64, 0x3833363830383438222c2274696d657374616d70223a22323031392d30362d31375431323a34363a30342e303032303636222c2276657273696f6e223a332c22),
  (64, 0x697376456e636c61766551756f7465537461747573223a2247524f55505f4f55545f4f465f44415445222c22706c6174666f726d496e666f426c6f62223a2231),
  (64, 0x36303230303635303430303039303030303039303930323034303138303030303030303030303030303030303030303030303830303030303930303030303030),
  (64, 0x32303030303030303030303030304234303141333535423331334643393339423446343841353433343943393103020348003045022100ae3606094053798f8e),
  (57, 0x639ddc695e45782a927ddc47154197d7d7d1cc78e01e0802201551a04254de277eecbd0237d3d883f7e65ac548b444f7e20da7e45e66108570)]

/-- `CERT_TOO_SHORT2`, teerex/sgx-verify/src/tests.rs L78. -/
def CERT_TOO_SHORT2 : Bytes := unhex [
  (5, 0x30820c8c30)]

end Verif.Conf.Data
