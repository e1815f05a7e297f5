import Verif.Conformance.External

/-!
# DCAP test data of teerex/sgx-verify, copied byte by byte
-/

namespace Verif.Conf.Data

/-- `TEST1_DCAP_QUOTE`, teerex/sgx-verify/test-data/ra_dcap_dump_quote.ra. -/
def quote1 : Bytes := unhex [
  (64, 0x030002000000000008000d00939a7233f79c4ca9940a0db3957f0607a13c378bed0632c321a548e1037336cd0000000013130b0501ff07000000000000000000),
  (64, 0x0000000000000000000000000000000000000000000000000000000000000000070000000000000007000000000000006f90120b5c1f03619112eac855e29d6e),
  (64, 0x0be4f35b2902aa169affff7719277ebc000000000000000000000000000000000000000000000000000000000000000083d719e77deaca1470f6baf62a4d7743),
  (64, 0x03c899db69020f9c70ee1dfc08c7ce9e000000000000000000000000000000000000000000000000000000000000000000000000000000000000000000000000),
  (64, 0x00000000000000000000000000000000000000000000000000000000000000000000000000000000000000000000000000000000000000000000000000000000),
  (64, 0x0000000000000000000000000000000000000000000000000000000000000000000000000000000000000000000000004159c17656ac1195cea0ae4bdb9733eb),
  (64, 0x6e87143793a26a6e8fcf3940433fcb5f000000000000000000000000000000000000000000000000000000000000000043100000146db635216112cbd95a51b2),
  (64, 0x4257f8d3fff79d8376c9e7a522ba29df76569c4dba0d8796f6f536c719293075a619f717b31e8b242923f0a94a08f9754301de28aedaff69fdfa41776c988c62),
  (64, 0xe59a49b8891b1763ebad2a6d7b5de8a38c3520e68d1a4fda324e5ed8a3375aba9ccab2aaa9ca0b7ce30aad0207d4c59b0923c97513130b0501ff070000000000),
  (64, 0x000000000000000000000000000000000000000000000000000000000000000000000000150000000000000007000000000000008ce58685be36e46187c233c7),
  (64, 0xe99ed6fe75dbb33f7567ada217b077ecd8cf82f900000000000000000000000000000000000000000000000000000000000000008c4f5775d796503e96137f77),
  (64, 0xc68a829a0056ac8ded70140b081b094490c57bff0000000000000000000000000000000000000000000000000000000000000000000000000000000000000000),
  (64, 0x00000000000000000000000000000000000000000000000000000000000000000000000000000000000000000000000000000000010008000000000000000000),
  (64, 0x00000000000000000000000000000000000000000000000000000000000000000000000000000000000000000000000000000000bb02ee8f65f8ed2fdd908a46),
  (64, 0x3ea26efa12b3d6d404dc64911e51b4204f33cd750000000000000000000000000000000000000000000000000000000000000000b55970dc6ee45022fc5c8078),
  (64, 0x75a3ae3ccacfae72e89d3686117940db0f1ac46eb473c24873cbd1869dc8eaa6bea2798fb5ca3742cfc93e54eec82584e274ca95200000010203040506070809),
  (64, 0x0a0b0c0d0e0f101112131415161718191a1b1c1d1e1f0500db0d00002d2d2d2d2d424547494e2043455254494649434154452d2d2d2d2d0a4d4949456a6a4343),
  (64, 0x424453674177494241674956414d7957716c44336d6b7875324668597550747243703262496430364d416f4743437147534d343942414d430a4d484578497a41),
  (64, 0x6842674e5642414d4d476b6c756447567349464e48574342515130736755484a765932567a6332397949454e424d526f77474159445651514b0a4442464a626e),
  (64, 0x526c6243424462334a7762334a6864476c76626a45554d424947413155454277774c553246756447456751327868636d4578437a414a42674e560a4241674d41),
  (64, 0x6b4e424d517377435159445651514745774a56557a4165467730794d6a41314d6a4d784e5441334d445261467730794f5441314d6a4d784e5441330a4d445261),
  (64, 0x4d484178496a416742674e5642414d4d47556c756447567349464e4857434251513073675132567964476c6d61574e6864475578476a415942674e560a42416f),
  (64, 0x4d45556c756447567349454e76636e4276636d4630615739754d5251774567594456515148444174545957353059534244624746795954454c4d416b470a4131),
  (64, 0x55454341774351304578437a414a42674e5642415954416c56544d466b77457759484b6f5a497a6a3043415159494b6f5a497a6a304441516344516741450a37),
  (64, 0x704d79715864484f6f5664755a4147386a33576c69753046595768542b746a6a596a3954646c6d723531783869756448444754785655326f655a436e6865610a),
  (64, 0x7451757143424a306856374136674c6e3566765862714f434171677767674b6b4d42384741315564497751594d426141464e446f71747031312f6b7553526559),
  (64, 0x0a504873555a644456386c6c4e4d477747413155644877526c4d474d77596142666f463247573268306448427a4f693876595842704c6e527964584e305a5752),
  (64, 0x7a0a5a584a3261574e6c63793570626e526c6243356a62323076633264344c324e6c636e52705a6d6c6a5958527062323476646a4d7663474e7259334a735032),
  (64, 0x4e680a5058427962324e6c63334e7663695a6c626d4e765a476c755a7a316b5a584977485159445652304f4242594546505731556f7635556379316a48674365),
  (64, 0x4270780a62362f746b67706f4d41344741315564447745422f775145417749477744414d42674e5648524d4241663845416a41414d4949423141594a4b6f5a49),
  (64, 0x6876684e0a415130424249494278544343416345774867594b4b6f5a496876684e41513042415151517339354442756b714d4244514a79724548346f54784443),
  (64, 0x43415751470a43697147534962345451454e41514977676746554d42414743797147534962345451454e41514942416745524d42414743797147534962345451),
  (64, 0x454e415149430a416745524d42414743797147534962345451454e41514944416745434d42414743797147534962345451454e41514945416745454d42414743),
  (64, 0x797147534962340a5451454e41514946416745424d42454743797147534962345451454e41514947416749416744415142677371686b69472b45304244514543),
  (64, 0x42774942427a41510a42677371686b69472b45304244514543434149424144415142677371686b69472b45304244514543435149424144415142677371686b69),
  (64, 0x472b453042445145430a436749424144415142677371686b69472b45304244514543437749424144415142677371686b69472b45304244514543444149424144),
  (64, 0x415142677371686b69470a2b45304244514543445149424144415142677371686b69472b45304244514543446749424144415142677371686b69472b45304244),
  (64, 0x51454344774942414441510a42677371686b69472b45304244514543454149424144415142677371686b69472b4530424451454345514942437a416642677371),
  (64, 0x686b69472b453042445145430a4567515145524543424147414277414141414141414141414144415142676f71686b69472b4530424451454442414941414441),
  (64, 0x5542676f71686b69472b4530420a44514545424159416b473668414141774477594b4b6f5a496876684e4151304242516f424144414b42676771686b6a4f5051),
  (64, 0x514441674e4941444246416942340a323075786c314e637868366a3143744931634a48735a787657673030633165525757593270725457505149684149686d6d),
  (64, 0x51554f6379527875625255794748570a2f53624d6a563576365a5656516e324949755a55574d36340a2d2d2d2d2d454e442043455254494649434154452d2d2d),
  (64, 0x2d2d0a2d2d2d2d2d424547494e2043455254494649434154452d2d2d2d2d0a4d4949436d444343416a36674177494241674956414e446f71747031312f6b7553),
  (64, 0x526559504873555a644456386c6c4e4d416f4743437147534d343942414d430a4d476778476a415942674e5642414d4d45556c756447567349464e4857434253),
  (64, 0x6232393049454e424d526f77474159445651514b4442464a626e526c624342440a62334a7762334a6864476c76626a45554d424947413155454277774c553246),
  (64, 0x756447456751327868636d4578437a414a42674e564241674d416b4e424d5173770a435159445651514745774a56557a4165467730784f4441314d6a45784d44),
  (64, 0x55774d5442614677307a4d7a41314d6a45784d4455774d5442614d484578497a41680a42674e5642414d4d476b6c756447567349464e48574342515130736755),
  (64, 0x484a765932567a6332397949454e424d526f77474159445651514b4442464a626e526c0a6243424462334a7762334a6864476c76626a45554d42494741315545),
  (64, 0x4277774c553246756447456751327868636d4578437a414a42674e564241674d416b4e420a4d517377435159445651514745774a56557a425a4d424d47427971),
  (64, 0x47534d34394167454743437147534d34394177454841304941424c39712b4e4d7032494f670a74646c31626b2f75575a352b5447516d38614369387a37386673),
  (64, 0x2b664b435133642b75447a586e56544154325a68444369667949754a77764e33774e427039690a484253534d4a4d4a72424f6a67627377676267774877594456),
  (64, 0x52306a42426777466f4155496d554d316c71644e496e7a6737535655723951477a6b6e427177770a556759445652306642457377535442486f45576751345a42),
  (64, 0x6148523063484d364c79396a5a584a3061575a70593246305a584d7564484a316333526c5a484e6c0a636e5a705932567a4c6d6c75644756734c6d4e76625339),
  (64, 0x4a626e526c62464e4857464a76623352445153356b5a584977485159445652304f42425945464e446f0a71747031312f6b7553526559504873555a644456386c),
  (64, 0x6c4e4d41344741315564447745422f77514541774942426a415342674e5648524d4241663845434441470a4151482f416745414d416f4743437147534d343942),
  (64, 0x414d43413067414d4555434951434a6754627456714f795a316d336a716941584d365159613672357357530a34792f4737793875494a47786477496752715076),
  (64, 0x42534b7a7a516167424c517135733541373070646f6961524a387a2f3075447a344e675639316b3d0a2d2d2d2d2d454e442043455254494649434154452d2d2d),
  (64, 0x2d2d0a2d2d2d2d2d424547494e2043455254494649434154452d2d2d2d2d0a4d4949436a7a4343416a53674177494241674955496d554d316c71644e496e7a67),
  (64, 0x37535655723951477a6b6e42717777436759494b6f5a497a6a3045417749770a614445614d4267474131554541777752535735305a5777675530645949464a76),
  (64, 0x6233516751304578476a415942674e5642416f4d45556c756447567349454e760a636e4276636d4630615739754d525177456759445651514844417454595735),
  (64, 0x3059534244624746795954454c4d416b47413155454341774351304578437a414a0a42674e5642415954416c56544d423458445445344d4455794d5445774e44),
  (64, 0x55784d466f58445451354d54497a4d54497a4e546b314f566f77614445614d4267470a4131554541777752535735305a5777675530645949464a766233516751),
  (64, 0x304578476a415942674e5642416f4d45556c756447567349454e76636e4276636d46300a615739754d5251774567594456515148444174545957353059534244),
  (64, 0x624746795954454c4d416b47413155454341774351304578437a414a42674e56424159540a416c56544d466b77457759484b6f5a497a6a3043415159494b6f5a),
  (64, 0x497a6a3044415163445167414543366e45774d4449595a4f6a2f69505773437a61454b69370a314f694f534c52466857476a626e42564a66566e6b5934753349),
  (64, 0x6a6b4459594c304d784f346d717379596a6c42616c54565978465032734a424b357a6c4b4f420a757a43427544416642674e5648534d4547444157674251695a),
  (64, 0x517a575770303069664f44744a5653763141624f5363477244425342674e5648523845537a424a0a4d45656752614244686b466f64485277637a6f764c324e6c),
  (64, 0x636e52705a6d6c6a5958526c63793530636e567a6447566b63325679646d6c6a5a584d75615735300a5a577775593239744c306c756447567355306459556d39),
  (64, 0x7664454e424c6d526c636a416442674e564851344546675155496d554d316c71644e496e7a673753560a55723951477a6b6e4271777744675944565230504151),
  (64, 0x482f42415144416745474d42494741315564457745422f7751494d4159424166384341514577436759490a4b6f5a497a6a304541774944535141775267496841),
  (64, 0x4f572f35516b522b533943695344634e6f6f774c7550524c735747662f59693747535839344267775477670a41694541344a306c72486f4d732b586f356f2f73),
  (55, 0x58364f39515778485241765a55474f6452513763767152586171493d0a2d2d2d2d2d454e442043455254494649434154452d2d2d2d2d0a)]

/-- `TEST2_DCAP_QUOTE_HEX` decoded, teerex/sgx-verify/test-data/dcap/test2_dcap_quote.hex. -/
def quote2 : Bytes := unhex [
  (64, 0x030002000000000009000e00939a7233f79c4ca9940a0db3957f0607da9377f95a1d5206b7a4febf23cbeb78000000000c0c100fffff00000000000000000000),
  (64, 0x00000000000000000000000000000000000000000000000000000000000000000500000000000000e70000000000000021f21b2c3a7db9bff95e96a391182fc7),
  (64, 0x9adb14f1e7251f3398aa9430c3c47f21000000000000000000000000000000000000000000000000000000000000000032dd20d9a859a4098ef221c9397573ee),
  (64, 0x330fecbac79014b1fdf85c9d9194e5e4000000000000000000000000000000000000000000000000000000000000000000000000000000000000000000000000),
  (64, 0x00000000000000000000000000000000000000000000000000000000000000000000000000000000000000000000000000000000000000000000000000000000),
  (64, 0x00000000000000000000000000000000000000000000000000000000000000000000000000000000000000000000000000000000000000000000000000000000),
  (64, 0x000000000000000000000000000000000000000000000000000000000000000000000000000000000000000000000000c6100000b9a6b0efea12f4ac3d29a274),
  (64, 0x98dec2166db8e02fbec7fc095acbc190e072bffdefd8b05df404ebbf23c54196b24e52d78acb75cd8b58dd008b63af19b449b08482bde232d5b01aed8aa6c1b3),
  (64, 0x6d44964d079894c484d25164f44854c3742d33015645e5ee1e11f404538888e5464c1b6b507b8edaa74d4fde1f32b25cbe3ba2d70c0c100fffff000000000000),
  (64, 0x0000000000000000000000000000000000000000000000000000000000000000000000001500000000000000e700000000000000192aa50ce1c0cef03ccf89e7),
  (64, 0xb5b16b0d7978f5c2b1edcf774d87702e8154d8bf00000000000000000000000000000000000000000000000000000000000000008c4f5775d796503e96137f77),
  (64, 0xc68a829a0056ac8ded70140b081b094490c57bff0000000000000000000000000000000000000000000000000000000000000000000000000000000000000000),
  (64, 0x00000000000000000000000000000000000000000000000000000000000000000000000000000000000000000000000000000000010009000000000000000000),
  (64, 0x0000000000000000000000000000000000000000000000000000000000000000000000000000000000000000000000000000000023ff6fa0590a9036f3e3d2d6),
  (64, 0x8dec54299907c66ac5344c6c66ffa836078c1bc80000000000000000000000000000000000000000000000000000000000000000b0a5a8d2227b33084607dc4c),
  (64, 0x4561127a93fea6d23ff839e37ae50d6017dfd530119f825ced65b1bc94689c9d8edec923d49f6b8ae7b2865ebb1fbae2821d8b2a200000010203040506070809),
  (64, 0x0a0b0c0d0e0f101112131415161718191a1b1c1d1e1f05005e0e00002d2d2d2d2d424547494e2043455254494649434154452d2d2d2d2d0a4d49494538544343),
  (64, 0x424a69674177494241674955666455777976756c336c3255774c593670473646563245344b625577436759494b6f5a497a6a3045417749770a634445694d4341),
  (64, 0x47413155454177775a535735305a577767553064594946424453794251624746305a6d397962534244515445614d42674741315545436777520a535735305a57),
  (64, 0x7767513239796347397959585270623234784644415342674e564241634d43314e68626e526849454e7359584a684d51737743515944565151490a44414a4451),
  (64, 0x54454c4d416b474131554542684d4356564d774868634e4d6a4d774f444d784d446b304e444d7a5768634e4d7a41774f444d784d446b304e444d7a0a576a4277),
  (64, 0x4d534977494159445651514444426c4a626e526c624342545231676755454e4c49454e6c636e52705a6d6c6a5958526c4d526f77474159445651514b0a444246),
  (64, 0x4a626e526c6243424462334a7762334a6864476c76626a45554d424947413155454277774c553246756447456751327868636d4578437a414a42674e560a4241),
  (64, 0x674d416b4e424d517377435159445651514745774a56557a425a4d424d4742797147534d34394167454743437147534d34394177454841304941424e71310a6b),
  (64, 0x2f396a32527335637630774c573870766279515846342b523555476650313777685756475236453162596e536f627662323649734932325453666a374373320a),
  (64, 0x51545031716c585746756e764e513730616f6d6a67674d4f4d494944436a416642674e5648534d4547444157674253566231334e765276683655424a79645430),
  (64, 0x0a4d383442567776655644427242674e56485238455a4442694d47436758714263686c706f64485277637a6f764c32467761533530636e567a6447566b633256),
  (64, 0x790a646d6c6a5a584d75615735305a577775593239744c334e6e6543396a5a584a3061575a7059324630615739754c3359304c33426a61324e796244396a5954),
  (64, 0x31770a624746305a6d397962535a6c626d4e765a476c755a7a316b5a584977485159445652304f4242594546474c4c2b6454396d72724d53687a5675412b534b),
  (64, 0x3272370a6e352f774d41344741315564447745422f775145417749477744414d42674e5648524d4241663845416a41414d4949434f77594a4b6f5a496876684e),
  (64, 0x415130420a424949434c444343416967774867594b4b6f5a496876684e41513042415151517173654b6158565a4b656c68436f304733393870347a4343415755),
  (64, 0x47436971470a534962345451454e41514977676746564d42414743797147534962345451454e415149424167454d4d42414743797147534962345451454e4151),
  (64, 0x49434167454d0a4d42414743797147534962345451454e41514944416745444d42414743797147534962345451454e41514945416745444d4245474379714753),
  (64, 0x4962345451454e0a41514946416749412f7a415242677371686b69472b4530424451454342674943415038774541594c4b6f5a496876684e4151304241676343),
  (64, 0x415141774541594c0a4b6f5a496876684e4151304241676743415141774541594c4b6f5a496876684e4151304241676b43415141774541594c4b6f5a49687668),
  (64, 0x4e4151304241676f430a415141774541594c4b6f5a496876684e4151304241677343415141774541594c4b6f5a496876684e4151304241677743415141774541),
  (64, 0x594c4b6f5a496876684e0a4151304241673043415141774541594c4b6f5a496876684e4151304241673443415141774541594c4b6f5a496876684e4151304241),
  (64, 0x673843415141774541594c0a4b6f5a496876684e4151304241684143415141774541594c4b6f5a496876684e4151304241684543415130774877594c4b6f5a49),
  (64, 0x6876684e41513042416849450a4541774d4177502f2f7741414141414141414141414141774541594b4b6f5a496876684e415130424177514341414177464159),
  (64, 0x4b4b6f5a496876684e415130420a4241514741474271414141414d41384743697147534962345451454e4151554b415145774867594b4b6f5a496876684e4151),
  (64, 0x3042426751512b4138382f7672380a4c643478644a7a5a7a5a78783844424542676f71686b69472b453042445145484d4459774541594c4b6f5a496876684e41),
  (64, 0x51304242774542416638774541594c0a4b6f5a496876684e4151304242774942416638774541594c4b6f5a496876684e4151304242774d424166387743675949),
  (64, 0x4b6f5a497a6a304541774944527741770a524149676554454b73645652783836654a2f67305073624366764462484953484e756f387a61466c6d464a6a302b77),
  (64, 0x4349436c78444e6433322f57752b6d584d0a68724d5277326a68356b2f3577694f2b72734f774d4969745575766c0a2d2d2d2d2d454e44204345525449464943),
  (64, 0x4154452d2d2d2d2d0a2d2d2d2d2d424547494e2043455254494649434154452d2d2d2d2d0a4d4949436c6a4343416a32674177494241674956414a5676586332),
  (64, 0x39472b487051456e4a3150517a7a674658433935554d416f4743437147534d343942414d430a4d476778476a415942674e5642414d4d45556c75644756734946),
  (64, 0x4e48574342536232393049454e424d526f77474159445651514b4442464a626e526c624342440a62334a7762334a6864476c76626a45554d4249474131554542),
  (64, 0x77774c553246756447456751327868636d4578437a414a42674e564241674d416b4e424d5173770a435159445651514745774a56557a4165467730784f444131),
  (64, 0x4d6a45784d4455774d5442614677307a4d7a41314d6a45784d4455774d5442614d484178496a41670a42674e5642414d4d47556c756447567349464e48574342),
  (64, 0x51513073675547786864475a76636d306751304578476a415942674e5642416f4d45556c75644756730a49454e76636e4276636d4630615739754d5251774567),
  (64, 0x594456515148444174545957353059534244624746795954454c4d416b474131554543417743513045780a437a414a42674e5642415954416c56544d466b7745),
  (64, 0x7759484b6f5a497a6a3043415159494b6f5a497a6a304441516344516741454e53422f377432316c58534f0a3243757a7078773734654a423732457944476757),
  (64, 0x357258437478327456544c7136684b6b367a2b5569525a436e71523770734f766771466553786c6d546c4a6c0a65546d693257597a33714f42757a4342754441),
  (64, 0x6642674e5648534d4547444157674251695a517a575770303069664f44744a5653763141624f536347724442530a42674e5648523845537a424a4d4565675261),
  (64, 0x4244686b466f64485277637a6f764c324e6c636e52705a6d6c6a5958526c63793530636e567a6447566b633256790a646d6c6a5a584d75615735305a57777559),
  (64, 0x3239744c306c756447567355306459556d397664454e424c6d526c636a416442674e5648513445466751556c5739640a7a62306234656c4153636e553944504f),
  (64, 0x4156634c336c517744675944565230504151482f42415144416745474d42494741315564457745422f7751494d4159420a4166384341514177436759494b6f5a),
  (64, 0x497a6a30454177494452774177524149675873566b6930772b6936565947573355462f32327561586530594a446a3155650a6e412b546a443161693563434943),
  (64, 0x59623153416d4435786b66545670766f34556f79695359787244574c6d5552344349394e4b7966504e2b0a2d2d2d2d2d454e442043455254494649434154452d),
  (64, 0x2d2d2d2d0a2d2d2d2d2d424547494e2043455254494649434154452d2d2d2d2d0a4d4949436a7a4343416a53674177494241674955496d554d316c71644e496e),
  (64, 0x7a6737535655723951477a6b6e42717777436759494b6f5a497a6a3045417749770a614445614d4267474131554541777752535735305a577767553064594946),
  (64, 0x4a766233516751304578476a415942674e5642416f4d45556c756447567349454e760a636e4276636d4630615739754d52517745675944565151484441745459),
  (64, 0x57353059534244624746795954454c4d416b47413155454341774351304578437a414a0a42674e5642415954416c56544d423458445445344d4455794d544577),
  (64, 0x4e4455784d466f58445451354d54497a4d54497a4e546b314f566f77614445614d4267470a4131554541777752535735305a5777675530645949464a76623351),
  (64, 0x6751304578476a415942674e5642416f4d45556c756447567349454e76636e4276636d46300a615739754d525177456759445651514844417454595735305953),
  (64, 0x4244624746795954454c4d416b47413155454341774351304578437a414a42674e56424159540a416c56544d466b77457759484b6f5a497a6a3043415159494b),
  (64, 0x6f5a497a6a3044415163445167414543366e45774d4449595a4f6a2f69505773437a61454b69370a314f694f534c52466857476a626e42564a66566e6b593475),
  (64, 0x33496a6b4459594c304d784f346d717379596a6c42616c54565978465032734a424b357a6c4b4f420a757a43427544416642674e5648534d4547444157674251),
  (64, 0x695a517a575770303069664f44744a5653763141624f5363477244425342674e5648523845537a424a0a4d45656752614244686b466f64485277637a6f764c32),
  (64, 0x4e6c636e52705a6d6c6a5958526c63793530636e567a6447566b63325679646d6c6a5a584d75615735300a5a577775593239744c306c75644756735530645955),
  (64, 0x6d397664454e424c6d526c636a416442674e564851344546675155496d554d316c71644e496e7a673753560a55723951477a6b6e427177774467594456523050),
  (64, 0x4151482f42415144416745474d42494741315564457745422f7751494d4159424166384341514577436759490a4b6f5a497a6a30454177494453514177526749),
  (64, 0x68414f572f35516b522b533943695344634e6f6f774c7550524c735747662f59693747535839344267775477670a41694541344a306c72486f4d732b586f356f),
  (58, 0x2f7358364f39515778485241765a55474f6452513763767152586171493d0a2d2d2d2d2d454e442043455254494649434154452d2d2d2d2d0a00)]

/-- `QUOTING_ENCLAVE`, teerex/sgx-verify/src/test_data.rs L95. -/
def quotingEnclave : Bytes := unhex [
  (64, 0x7b226964223a225145222c2276657273696f6e223a322c22697373756544617465223a22323032322d31322d30345432323a34353a33335a222c226e65787455),
  (64, 0x7064617465223a22323032332d30312d30335432323a34353a33335a222c227463624576616c756174696f6e446174614e756d626572223a31332c226d697363),
  (64, 0x73656c656374223a223030303030303030222c226d69736373656c6563744d61736b223a224646464646464646222c2261747472696275746573223a22313130),
  (64, 0x3030303030303030303030303030303030303030303030303030303030222c22617474726962757465734d61736b223a22464246464646464646464646464646),
  (64, 0x4630303030303030303030303030303030222c226d727369676e6572223a22384334463537373544373936353033453936313337463737433638413832394130),
  (64, 0x30353641433844454437303134304230383142303934343930433537424646222c2269737670726f646964223a312c227463624c6576656c73223a5b7b227463),
  (64, 0x62223a7b2269737673766e223a367d2c2274636244617465223a22323032322d31312d30395430303a30303a30305a222c22746362537461747573223a225570),
  (64, 0x546f44617465227d2c7b22746362223a7b2269737673766e223a357d2c2274636244617465223a22323032302d31312d31315430303a30303a30305a222c2274),
  (64, 0x6362537461747573223a224f75744f6644617465222c2261647669736f7279494473223a5b22494e54454c2d53412d3030343737225d7d2c7b22746362223a7b),
  (64, 0x2269737673766e223a347d2c2274636244617465223a22323031392d31312d31335430303a30303a30305a222c22746362537461747573223a224f75744f6644),
  (64, 0x617465222c2261647669736f7279494473223a5b22494e54454c2d53412d3030333334222c22494e54454c2d53412d3030343737225d7d2c7b22746362223a7b),
  (64, 0x2269737673766e223a327d2c2274636244617465223a22323031392d30352d31355430303a30303a30305a222c22746362537461747573223a224f75744f6644),
  (64, 0x617465222c2261647669736f7279494473223a5b22494e54454c2d53412d3030323139222c22494e54454c2d53412d3030323933222c22494e54454c2d53412d),
  (64, 0x3030333334222c22494e54454c2d53412d3030343737225d7d2c7b22746362223a7b2269737673766e223a317d2c2274636244617465223a22323031382d3038),
  (64, 0x2d31355430303a30303a30305a222c22746362537461747573223a224f75744f6644617465222c2261647669736f7279494473223a5b22494e54454c2d53412d),
  (64, 0x3030323032222c22494e54454c2d53412d3030323139222c22494e54454c2d53412d3030323933222c22494e54454c2d53412d3030333334222c22494e54454c),
  (14, 0x2d53412d3030343737225d7d5d7d)]

/-- `QUOTING_ENCLAVE_SIGNATURE`, teerex/sgx-verify/src/test_data.rs L96. -/
def quotingEnclaveSig : Bytes := unhex [
  (64, 0x47accba321e57c20722a0d3d1db11c9b52661239857dc578ca1bde13976ee288cf39f72111ffe445c7389ef56447c79e30e6b83a8863ed9880de5bde4a8d5c91)]

/-- `TCB_INFO`, teerex/sgx-verify/src/test_data.rs L111. -/
def tcbInfo : Bytes := unhex [
  (64, 0x7b226964223a22534758222c2276657273696f6e223a332c22697373756544617465223a22323032322d31312d31375431323a34353a33325a222c226e657874),
  (64, 0x557064617465223a22323032332d30342d31365431323a34353a33325a222c22666d737063223a22303039303645413130303030222c227063654964223a2230),
  (64, 0x303030222c2274636254797065223a302c227463624576616c756174696f6e446174614e756d626572223a31322c227463624c6576656c73223a5b7b22746362),
  (64, 0x223a7b22736778746362636f6d706f6e656e7473223a5b7b2273766e223a31377d2c7b2273766e223a31377d2c7b2273766e223a327d2c7b2273766e223a347d),
  (64, 0x2c7b2273766e223a317d2c7b2273766e223a3132387d2c7b2273766e223a377d2c7b2273766e223a307d2c7b2273766e223a307d2c7b2273766e223a307d2c7b),
  (64, 0x2273766e223a307d2c7b2273766e223a307d2c7b2273766e223a307d2c7b2273766e223a307d2c7b2273766e223a307d2c7b2273766e223a307d5d2c22706365),
  (64, 0x73766e223a31317d2c2274636244617465223a22323032312d31312d31305430303a30303a30305a222c22746362537461747573223a22535748617264656e69),
  (64, 0x6e674e6565646564222c2261647669736f7279494473223a5b22494e54454c2d53412d3030333334225d7d2c7b22746362223a7b22736778746362636f6d706f),
  (64, 0x6e656e7473223a5b7b2273766e223a31377d2c7b2273766e223a31377d2c7b2273766e223a327d2c7b2273766e223a347d2c7b2273766e223a317d2c7b227376),
  (64, 0x6e223a3132387d2c7b2273766e223a377d2c7b2273766e223a307d2c7b2273766e223a307d2c7b2273766e223a307d2c7b2273766e223a307d2c7b2273766e22),
  (64, 0x3a307d2c7b2273766e223a307d2c7b2273766e223a307d2c7b2273766e223a307d2c7b2273766e223a307d5d2c2270636573766e223a31307d2c227463624461),
  (64, 0x7465223a22323032302d31312d31315430303a30303a30305a222c22746362537461747573223a224f75744f6644617465222c2261647669736f727949447322),
  (64, 0x3a5b22494e54454c2d53412d3030313631222c22494e54454c2d53412d3030323139222c22494e54454c2d53412d3030323839222c22494e54454c2d53412d30),
  (64, 0x30333334225d7d2c7b22746362223a7b22736778746362636f6d706f6e656e7473223a5b7b2273766e223a31377d2c7b2273766e223a31377d2c7b2273766e22),
  (64, 0x3a327d2c7b2273766e223a347d2c7b2273766e223a317d2c7b2273766e223a3132387d2c7b2273766e223a307d2c7b2273766e223a307d2c7b2273766e223a30),
  (64, 0x7d2c7b2273766e223a307d2c7b2273766e223a307d2c7b2273766e223a307d2c7b2273766e223a307d2c7b2273766e223a307d2c7b2273766e223a307d2c7b22),
  (64, 0x73766e223a307d5d2c2270636573766e223a31317d2c2274636244617465223a22323032312d31312d31305430303a30303a30305a222c227463625374617475),
  (64, 0x73223a22436f6e66696775726174696f6e416e64535748617264656e696e674e6565646564222c2261647669736f7279494473223a5b22494e54454c2d53412d),
  (64, 0x3030313631222c22494e54454c2d53412d3030323139222c22494e54454c2d53412d3030323839222c22494e54454c2d53412d3030333334225d7d2c7b227463),
  (64, 0x62223a7b22736778746362636f6d706f6e656e7473223a5b7b2273766e223a31377d2c7b2273766e223a31377d2c7b2273766e223a327d2c7b2273766e223a34),
  (64, 0x7d2c7b2273766e223a317d2c7b2273766e223a3132387d2c7b2273766e223a307d2c7b2273766e223a307d2c7b2273766e223a307d2c7b2273766e223a307d2c),
  (64, 0x7b2273766e223a307d2c7b2273766e223a307d2c7b2273766e223a307d2c7b2273766e223a307d2c7b2273766e223a307d2c7b2273766e223a307d5d2c227063),
  (64, 0x6573766e223a31307d2c2274636244617465223a22323032302d31312d31315430303a30303a30305a222c22746362537461747573223a224f75744f66446174),
  (64, 0x65436f6e66696775726174696f6e4e6565646564222c2261647669736f7279494473223a5b22494e54454c2d53412d3030343737222c22494e54454c2d53412d),
  (64, 0x3030313631222c22494e54454c2d53412d3030323139222c22494e54454c2d53412d3030323839222c22494e54454c2d53412d3030333334225d7d2c7b227463),
  (64, 0x62223a7b22736778746362636f6d706f6e656e7473223a5b7b2273766e223a31357d2c7b2273766e223a31357d2c7b2273766e223a327d2c7b2273766e223a34),
  (64, 0x7d2c7b2273766e223a317d2c7b2273766e223a3132387d2c7b2273766e223a377d2c7b2273766e223a307d2c7b2273766e223a307d2c7b2273766e223a307d2c),
  (64, 0x7b2273766e223a307d2c7b2273766e223a307d2c7b2273766e223a307d2c7b2273766e223a307d2c7b2273766e223a307d2c7b2273766e223a307d5d2c227063),
  (64, 0x6573766e223a31307d2c2274636244617465223a22323032302d30362d31305430303a30303a30305a222c22746362537461747573223a224f75744f66446174),
  (64, 0x65222c2261647669736f7279494473223a5b22494e54454c2d53412d3030333831222c22494e54454c2d53412d3030333839222c22494e54454c2d53412d3030),
  (64, 0x343737222c22494e54454c2d53412d3030313631222c22494e54454c2d53412d3030323139222c22494e54454c2d53412d3030323839222c22494e54454c2d53),
  (64, 0x412d3030333334225d7d2c7b22746362223a7b22736778746362636f6d706f6e656e7473223a5b7b2273766e223a31357d2c7b2273766e223a31357d2c7b2273),
  (64, 0x766e223a327d2c7b2273766e223a347d2c7b2273766e223a317d2c7b2273766e223a3132387d2c7b2273766e223a307d2c7b2273766e223a307d2c7b2273766e),
  (64, 0x223a307d2c7b2273766e223a307d2c7b2273766e223a307d2c7b2273766e223a307d2c7b2273766e223a307d2c7b2273766e223a307d2c7b2273766e223a307d),
  (64, 0x2c7b2273766e223a307d5d2c2270636573766e223a31307d2c2274636244617465223a22323032302d30362d31305430303a30303a30305a222c227463625374),
  (64, 0x61747573223a224f75744f6644617465436f6e66696775726174696f6e4e6565646564222c2261647669736f7279494473223a5b22494e54454c2d53412d3030),
  (64, 0x313631222c22494e54454c2d53412d3030323139222c22494e54454c2d53412d3030323839222c22494e54454c2d53412d3030333831222c22494e54454c2d53),
  (64, 0x412d3030333839222c22494e54454c2d53412d3030343737222c22494e54454c2d53412d3030333334225d7d2c7b22746362223a7b22736778746362636f6d70),
  (64, 0x6f6e656e7473223a5b7b2273766e223a31347d2c7b2273766e223a31347d2c7b2273766e223a327d2c7b2273766e223a347d2c7b2273766e223a317d2c7b2273),
  (64, 0x766e223a3132387d2c7b2273766e223a377d2c7b2273766e223a307d2c7b2273766e223a307d2c7b2273766e223a307d2c7b2273766e223a307d2c7b2273766e),
  (64, 0x223a307d2c7b2273766e223a307d2c7b2273766e223a307d2c7b2273766e223a307d2c7b2273766e223a307d5d2c2270636573766e223a31307d2c2274636244),
  (64, 0x617465223a22323031392d31322d31315430303a30303a30305a222c22746362537461747573223a224f75744f6644617465222c2261647669736f7279494473),
  (64, 0x223a5b22494e54454c2d53412d3030333230222c22494e54454c2d53412d3030333239222c22494e54454c2d53412d3030313631222c22494e54454c2d53412d),
  (64, 0x3030323139222c22494e54454c2d53412d3030323839222c22494e54454c2d53412d3030333831222c22494e54454c2d53412d3030333839222c22494e54454c),
  (64, 0x2d53412d3030343737222c22494e54454c2d53412d3030333334225d7d2c7b22746362223a7b22736778746362636f6d706f6e656e7473223a5b7b2273766e22),
  (64, 0x3a31347d2c7b2273766e223a31347d2c7b2273766e223a327d2c7b2273766e223a347d2c7b2273766e223a317d2c7b2273766e223a3132387d2c7b2273766e22),
  (64, 0x3a307d2c7b2273766e223a307d2c7b2273766e223a307d2c7b2273766e223a307d2c7b2273766e223a307d2c7b2273766e223a307d2c7b2273766e223a307d2c),
  (64, 0x7b2273766e223a307d2c7b2273766e223a307d2c7b2273766e223a307d5d2c2270636573766e223a31307d2c2274636244617465223a22323031392d31322d31),
  (64, 0x315430303a30303a30305a222c22746362537461747573223a224f75744f6644617465436f6e66696775726174696f6e4e6565646564222c2261647669736f72),
  (64, 0x79494473223a5b22494e54454c2d53412d3030313631222c22494e54454c2d53412d3030323139222c22494e54454c2d53412d3030323839222c22494e54454c),
  (64, 0x2d53412d3030333230222c22494e54454c2d53412d3030333239222c22494e54454c2d53412d3030333831222c22494e54454c2d53412d3030333839222c2249),
  (64, 0x4e54454c2d53412d3030343737222c22494e54454c2d53412d3030333334225d7d2c7b22746362223a7b22736778746362636f6d706f6e656e7473223a5b7b22),
  (64, 0x73766e223a31337d2c7b2273766e223a31337d2c7b2273766e223a327d2c7b2273766e223a347d2c7b2273766e223a317d2c7b2273766e223a3132387d2c7b22),
  (64, 0x73766e223a337d2c7b2273766e223a307d2c7b2273766e223a307d2c7b2273766e223a307d2c7b2273766e223a307d2c7b2273766e223a307d2c7b2273766e22),
  (64, 0x3a307d2c7b2273766e223a307d2c7b2273766e223a307d2c7b2273766e223a307d5d2c2270636573766e223a397d2c2274636244617465223a22323031392d31),
  (64, 0x312d31335430303a30303a30305a222c22746362537461747573223a224f75744f6644617465222c2261647669736f7279494473223a5b22494e54454c2d5341),
  (64, 0x2d3030313631222c22494e54454c2d53412d3030323139222c22494e54454c2d53412d3030323839222c22494e54454c2d53412d3030333230222c22494e5445),
  (64, 0x4c2d53412d3030333239222c22494e54454c2d53412d3030333831222c22494e54454c2d53412d3030333839222c22494e54454c2d53412d3030343737222c22),
  (64, 0x494e54454c2d53412d3030333334225d7d2c7b22746362223a7b22736778746362636f6d706f6e656e7473223a5b7b2273766e223a31337d2c7b2273766e223a),
  (64, 0x31337d2c7b2273766e223a327d2c7b2273766e223a347d2c7b2273766e223a317d2c7b2273766e223a3132387d2c7b2273766e223a307d2c7b2273766e223a30),
  (64, 0x7d2c7b2273766e223a307d2c7b2273766e223a307d2c7b2273766e223a307d2c7b2273766e223a307d2c7b2273766e223a307d2c7b2273766e223a307d2c7b22),
  (64, 0x73766e223a307d2c7b2273766e223a307d5d2c2270636573766e223a397d2c2274636244617465223a22323031392d31312d31335430303a30303a30305a222c),
  (64, 0x22746362537461747573223a224f75744f6644617465436f6e66696775726174696f6e4e6565646564222c2261647669736f7279494473223a5b22494e54454c),
  (64, 0x2d53412d3030313631222c22494e54454c2d53412d3030323139222c22494e54454c2d53412d3030323839222c22494e54454c2d53412d3030333230222c2249),
  (64, 0x4e54454c2d53412d3030333239222c22494e54454c2d53412d3030333831222c22494e54454c2d53412d3030333839222c22494e54454c2d53412d3030343737),
  (64, 0x222c22494e54454c2d53412d3030333334225d7d2c7b22746362223a7b22736778746362636f6d706f6e656e7473223a5b7b2273766e223a367d2c7b2273766e),
  (64, 0x223a367d2c7b2273766e223a327d2c7b2273766e223a347d2c7b2273766e223a317d2c7b2273766e223a3132387d2c7b2273766e223a317d2c7b2273766e223a),
  (64, 0x307d2c7b2273766e223a307d2c7b2273766e223a307d2c7b2273766e223a307d2c7b2273766e223a307d2c7b2273766e223a307d2c7b2273766e223a307d2c7b),
  (64, 0x2273766e223a307d2c7b2273766e223a307d5d2c2270636573766e223a377d2c2274636244617465223a22323031392d30352d31355430303a30303a30305a22),
  (64, 0x2c22746362537461747573223a224f75744f6644617465222c2261647669736f7279494473223a5b22494e54454c2d53412d3030323230222c22494e54454c2d),
  (64, 0x53412d3030323730222c22494e54454c2d53412d3030323933222c22494e54454c2d53412d3030313631222c22494e54454c2d53412d3030323139222c22494e),
  (64, 0x54454c2d53412d3030323839222c22494e54454c2d53412d3030333230222c22494e54454c2d53412d3030333239222c22494e54454c2d53412d303033383122),
  (64, 0x2c22494e54454c2d53412d3030333839222c22494e54454c2d53412d3030343737222c22494e54454c2d53412d3030333334225d7d2c7b22746362223a7b2273),
  (64, 0x6778746362636f6d706f6e656e7473223a5b7b2273766e223a367d2c7b2273766e223a367d2c7b2273766e223a327d2c7b2273766e223a347d2c7b2273766e22),
  (64, 0x3a317d2c7b2273766e223a3132387d2c7b2273766e223a307d2c7b2273766e223a307d2c7b2273766e223a307d2c7b2273766e223a307d2c7b2273766e223a30),
  (64, 0x7d2c7b2273766e223a307d2c7b2273766e223a307d2c7b2273766e223a307d2c7b2273766e223a307d2c7b2273766e223a307d5d2c2270636573766e223a377d),
  (64, 0x2c2274636244617465223a22323031392d30352d31355430303a30303a30305a222c22746362537461747573223a224f75744f6644617465436f6e6669677572),
  (64, 0x6174696f6e4e6565646564222c2261647669736f7279494473223a5b22494e54454c2d53412d3030313631222c22494e54454c2d53412d3030323230222c2249),
  (64, 0x4e54454c2d53412d3030323730222c22494e54454c2d53412d3030323933222c22494e54454c2d53412d3030323139222c22494e54454c2d53412d3030323839),
  (64, 0x222c22494e54454c2d53412d3030333230222c22494e54454c2d53412d3030333239222c22494e54454c2d53412d3030333831222c22494e54454c2d53412d30),
  (64, 0x30333839222c22494e54454c2d53412d3030343737222c22494e54454c2d53412d3030333334225d7d2c7b22746362223a7b22736778746362636f6d706f6e65),
  (64, 0x6e7473223a5b7b2273766e223a357d2c7b2273766e223a357d2c7b2273766e223a327d2c7b2273766e223a347d2c7b2273766e223a317d2c7b2273766e223a31),
  (64, 0x32387d2c7b2273766e223a317d2c7b2273766e223a307d2c7b2273766e223a307d2c7b2273766e223a307d2c7b2273766e223a307d2c7b2273766e223a307d2c),
  (64, 0x7b2273766e223a307d2c7b2273766e223a307d2c7b2273766e223a307d2c7b2273766e223a307d5d2c2270636573766e223a377d2c2274636244617465223a22),
  (64, 0x323031392d30312d30395430303a30303a30305a222c22746362537461747573223a224f75744f6644617465222c2261647669736f7279494473223a5b22494e),
  (64, 0x54454c2d53412d3030323333222c22494e54454c2d53412d3030313631222c22494e54454c2d53412d3030323230222c22494e54454c2d53412d303032373022),
  (64, 0x2c22494e54454c2d53412d3030323933222c22494e54454c2d53412d3030323139222c22494e54454c2d53412d3030323839222c22494e54454c2d53412d3030),
  (64, 0x333230222c22494e54454c2d53412d3030333239222c22494e54454c2d53412d3030333831222c22494e54454c2d53412d3030333839222c22494e54454c2d53),
  (64, 0x412d3030343737222c22494e54454c2d53412d3030333334225d7d2c7b22746362223a7b22736778746362636f6d706f6e656e7473223a5b7b2273766e223a35),
  (64, 0x7d2c7b2273766e223a357d2c7b2273766e223a327d2c7b2273766e223a347d2c7b2273766e223a317d2c7b2273766e223a3132387d2c7b2273766e223a317d2c),
  (64, 0x7b2273766e223a307d2c7b2273766e223a307d2c7b2273766e223a307d2c7b2273766e223a307d2c7b2273766e223a307d2c7b2273766e223a307d2c7b227376),
  (64, 0x6e223a307d2c7b2273766e223a307d2c7b2273766e223a307d5d2c2270636573766e223a367d2c2274636244617465223a22323031382d30382d31355430303a),
  (64, 0x30303a30305a222c22746362537461747573223a224f75744f6644617465222c2261647669736f7279494473223a5b22494e54454c2d53412d3030313631222c),
  (64, 0x22494e54454c2d53412d3030323333222c22494e54454c2d53412d3030323230222c22494e54454c2d53412d3030323730222c22494e54454c2d53412d303032),
  (64, 0x3933222c22494e54454c2d53412d3030323139222c22494e54454c2d53412d3030323839222c22494e54454c2d53412d3030333230222c22494e54454c2d5341),
  (64, 0x2d3030333239222c22494e54454c2d53412d3030333831222c22494e54454c2d53412d3030333839222c22494e54454c2d53412d3030343737222c22494e5445),
  (64, 0x4c2d53412d3030333334225d7d2c7b22746362223a7b22736778746362636f6d706f6e656e7473223a5b7b2273766e223a357d2c7b2273766e223a357d2c7b22),
  (64, 0x73766e223a327d2c7b2273766e223a347d2c7b2273766e223a317d2c7b2273766e223a3132387d2c7b2273766e223a307d2c7b2273766e223a307d2c7b227376),
  (64, 0x6e223a307d2c7b2273766e223a307d2c7b2273766e223a307d2c7b2273766e223a307d2c7b2273766e223a307d2c7b2273766e223a307d2c7b2273766e223a30),
  (64, 0x7d2c7b2273766e223a307d5d2c2270636573766e223a377d2c2274636244617465223a22323031392d30312d30395430303a30303a30305a222c227463625374),
  (64, 0x61747573223a224f75744f6644617465436f6e66696775726174696f6e4e6565646564222c2261647669736f7279494473223a5b22494e54454c2d53412d3030),
  (64, 0x313631222c22494e54454c2d53412d3030323333222c22494e54454c2d53412d3030323230222c22494e54454c2d53412d3030323730222c22494e54454c2d53),
  (64, 0x412d3030323933222c22494e54454c2d53412d3030323139222c22494e54454c2d53412d3030323839222c22494e54454c2d53412d3030333230222c22494e54),
  (64, 0x454c2d53412d3030333239222c22494e54454c2d53412d3030333831222c22494e54454c2d53412d3030333839222c22494e54454c2d53412d3030343737222c),
  (64, 0x22494e54454c2d53412d3030333334225d7d2c7b22746362223a7b22736778746362636f6d706f6e656e7473223a5b7b2273766e223a357d2c7b2273766e223a),
  (64, 0x357d2c7b2273766e223a327d2c7b2273766e223a347d2c7b2273766e223a317d2c7b2273766e223a3132387d2c7b2273766e223a307d2c7b2273766e223a307d),
  (64, 0x2c7b2273766e223a307d2c7b2273766e223a307d2c7b2273766e223a307d2c7b2273766e223a307d2c7b2273766e223a307d2c7b2273766e223a307d2c7b2273),
  (64, 0x766e223a307d2c7b2273766e223a307d5d2c2270636573766e223a367d2c2274636244617465223a22323031382d30382d31355430303a30303a30305a222c22),
  (64, 0x746362537461747573223a224f75744f6644617465436f6e66696775726174696f6e4e6565646564222c2261647669736f7279494473223a5b22494e54454c2d),
  (64, 0x53412d3030323033222c22494e54454c2d53412d3030313631222c22494e54454c2d53412d3030323333222c22494e54454c2d53412d3030323230222c22494e),
  (64, 0x54454c2d53412d3030323730222c22494e54454c2d53412d3030323933222c22494e54454c2d53412d3030323139222c22494e54454c2d53412d303032383922),
  (64, 0x2c22494e54454c2d53412d3030333230222c22494e54454c2d53412d3030333239222c22494e54454c2d53412d3030333831222c22494e54454c2d53412d3030),
  (64, 0x333839222c22494e54454c2d53412d3030343737222c22494e54454c2d53412d3030333334225d7d2c7b22746362223a7b22736778746362636f6d706f6e656e),
  (64, 0x7473223a5b7b2273766e223a347d2c7b2273766e223a347d2c7b2273766e223a327d2c7b2273766e223a347d2c7b2273766e223a317d2c7b2273766e223a3132),
  (64, 0x387d2c7b2273766e223a307d2c7b2273766e223a307d2c7b2273766e223a307d2c7b2273766e223a307d2c7b2273766e223a307d2c7b2273766e223a307d2c7b),
  (64, 0x2273766e223a307d2c7b2273766e223a307d2c7b2273766e223a307d2c7b2273766e223a307d5d2c2270636573766e223a357d2c2274636244617465223a2232),
  (64, 0x3031382d30312d30345430303a30303a30305a222c22746362537461747573223a224f75744f6644617465222c2261647669736f7279494473223a5b22494e54),
  (64, 0x454c2d53412d3030313036222c22494e54454c2d53412d3030313135222c22494e54454c2d53412d3030313335222c22494e54454c2d53412d3030323033222c),
  (64, 0x22494e54454c2d53412d3030313631222c22494e54454c2d53412d3030323333222c22494e54454c2d53412d3030323230222c22494e54454c2d53412d303032),
  (64, 0x3730222c22494e54454c2d53412d3030323933222c22494e54454c2d53412d3030323139222c22494e54454c2d53412d3030323839222c22494e54454c2d5341),
  (64, 0x2d3030333230222c22494e54454c2d53412d3030333239222c22494e54454c2d53412d3030333831222c22494e54454c2d53412d3030333839222c22494e5445),
  (64, 0x4c2d53412d3030343737222c22494e54454c2d53412d3030333334225d7d2c7b22746362223a7b22736778746362636f6d706f6e656e7473223a5b7b2273766e),
  (64, 0x223a327d2c7b2273766e223a327d2c7b2273766e223a327d2c7b2273766e223a347d2c7b2273766e223a317d2c7b2273766e223a3132387d2c7b2273766e223a),
  (64, 0x307d2c7b2273766e223a307d2c7b2273766e223a307d2c7b2273766e223a307d2c7b2273766e223a307d2c7b2273766e223a307d2c7b2273766e223a307d2c7b),
  (64, 0x2273766e223a307d2c7b2273766e223a307d2c7b2273766e223a307d5d2c2270636573766e223a347d2c2274636244617465223a22323031372d30372d323654),
  (64, 0x30303a30303a30305a222c22746362537461747573223a224f75744f6644617465222c2261647669736f7279494473223a5b22494e54454c2d53412d30303038),
  (64, 0x38222c22494e54454c2d53412d3030313036222c22494e54454c2d53412d3030313135222c22494e54454c2d53412d3030313335222c22494e54454c2d53412d),
  (64, 0x3030323033222c22494e54454c2d53412d3030313631222c22494e54454c2d53412d3030323333222c22494e54454c2d53412d3030323230222c22494e54454c),
  (64, 0x2d53412d3030323730222c22494e54454c2d53412d3030323933222c22494e54454c2d53412d3030323139222c22494e54454c2d53412d3030323839222c2249),
  (64, 0x4e54454c2d53412d3030333230222c22494e54454c2d53412d3030333239222c22494e54454c2d53412d3030333831222c22494e54454c2d53412d3030333839),
  (39, 0x222c22494e54454c2d53412d3030343737222c22494e54454c2d53412d3030333334225d7d5d7d)]

/-- `TCB_INFO_SIGNATURE`, teerex/sgx-verify/src/test_data.rs L112. -/
def tcbInfoSig : Bytes := unhex [
  (64, 0x71746f2148ecba04e35cf1ac77a7e6267ce99f6781c1031f724bb5bd94b8c1b6e4c07c01dc151692aa75be80dfba7350bb80c58314a6975189597e28e9bbc75c)]

/-- teerex/sgx-verify/test-data/dcap/qe_identity_issuer_chain.pem. -/
def qeChain : Bytes := unhex [
  (64, 0x2d2d2d2d2d424547494e2043455254494649434154452d2d2d2d2d0a4d494943697a4343416a4b674177494241674955666a6943316674564b55704153593546),
  (64, 0x68415070464a473939465577436759494b6f5a497a6a3045417749770a614445614d4267474131554541777752535735305a5777675530645949464a76623351),
  (64, 0x6751304578476a415942674e5642416f4d45556c756447567349454e760a636e4276636d4630615739754d525177456759445651514844417454595735305953),
  (64, 0x4244624746795954454c4d416b47413155454341774351304578437a414a0a42674e5642415954416c56544d423458445445344d4455794d5445774e5441784d),
  (64, 0x466f58445449314d4455794d5445774e5441784d466f77624445654d4277470a4131554541777756535735305a57776755306459494652445169425461576475),
  (64, 0x6157356e4d526f77474159445651514b4442464a626e526c6243424462334a770a62334a6864476c76626a45554d424947413155454277774c55324675644745),
  (64, 0x6751327868636d4578437a414a42674e564241674d416b4e424d517377435159440a5651514745774a56557a425a4d424d4742797147534d3439416745474343),
  (64, 0x7147534d3439417745484130494142454e464738787a79645752664b3932626d47760a502b6d4168393150457956374a683646474a64356e6445396142483752),
  (64, 0x33453441377562726c682f7a4e3343347876706f6f75476c69724d62612b57326c6a750a7970616a6762557767624977487759445652306a42426777466f4155),
  (64, 0x496d554d316c71644e496e7a6737535655723951477a6b6e4271777755675944565230660a42457377535442486f45576751345a426148523063484d364c7939),
  (64, 0x6a5a584a3061575a70593246305a584d7564484a316333526c5a484e6c636e5a705932567a0a4c6d6c75644756734c6d4e766253394a626e526c62464e485746),
  (64, 0x4a76623352445153356b5a584977485159445652304f42425945464834346774583756536c4b0a51456d4f5259514436525352766652564d4134474131556444),
  (64, 0x7745422f775145417749477744414d42674e5648524d4241663845416a41414d416f47434371470a534d343942414d43413063414d4551434942394338774f41),
  (64, 0x4e2f496d784474474143563234364b63716a61675a4f52306b7963747942727347474a564169416a0a667462724e47734755385948323131645269594e6f5050),
  (64, 0x7531395a702f7a65384a6d68756a42306f42773d3d0a2d2d2d2d2d454e442043455254494649434154452d2d2d2d2d0a2d2d2d2d2d424547494e204345525449),
  (64, 0x4649434154452d2d2d2d2d0a4d4949436a7a4343416a53674177494241674955496d554d316c71644e496e7a6737535655723951477a6b6e4271777743675949),
  (64, 0x4b6f5a497a6a3045417749770a614445614d4267474131554541777752535735305a5777675530645949464a766233516751304578476a415942674e5642416f),
  (64, 0x4d45556c756447567349454e760a636e4276636d4630615739754d5251774567594456515148444174545957353059534244624746795954454c4d416b474131),
  (64, 0x55454341774351304578437a414a0a42674e5642415954416c56544d423458445445344d4455794d5445774e4455784d466f58445451354d54497a4d54497a4e),
  (64, 0x546b314f566f77614445614d4267470a4131554541777752535735305a5777675530645949464a766233516751304578476a415942674e5642416f4d45556c75),
  (64, 0x6447567349454e76636e4276636d46300a615739754d5251774567594456515148444174545957353059534244624746795954454c4d416b4741315545434177),
  (64, 0x4351304578437a414a42674e56424159540a416c56544d466b77457759484b6f5a497a6a3043415159494b6f5a497a6a3044415163445167414543366e45774d),
  (64, 0x4449595a4f6a2f69505773437a61454b69370a314f694f534c52466857476a626e42564a66566e6b59347533496a6b4459594c304d784f346d717379596a6c42),
  (64, 0x616c54565978465032734a424b357a6c4b4f420a757a43427544416642674e5648534d4547444157674251695a517a575770303069664f44744a565376314162),
  (64, 0x4f5363477244425342674e5648523845537a424a0a4d45656752614244686b466f64485277637a6f764c324e6c636e52705a6d6c6a5958526c63793530636e56),
  (64, 0x7a6447566b63325679646d6c6a5a584d75615735300a5a577775593239744c306c756447567355306459556d397664454e424c6d526c636a416442674e564851),
  (64, 0x344546675155496d554d316c71644e496e7a673753560a55723951477a6b6e4271777744675944565230504151482f42415144416745474d4249474131556445),
  (64, 0x7745422f7751494d4159424166384341514577436759490a4b6f5a497a6a3045417749445351417752674968414f572f35516b522b533943695344634e6f6f77),
  (64, 0x4c7550524c735747662f59693747535839344267775477670a41694541344a306c72486f4d732b586f356f2f7358364f39515778485241765a55474f64525137),
  (35, 0x63767152586171493d0a2d2d2d2d2d454e442043455254494649434154452d2d2d2d2d)]

/-- teerex/sgx-verify/test-data/dcap/tcb_info_issuer_chain.pem. -/
def tcbChain : Bytes := unhex [
  (64, 0x2d2d2d2d2d424547494e2043455254494649434154452d2d2d2d2d0a4d494943697a4343416a4b674177494241674955666a6943316674564b55704153593546),
  (64, 0x68415070464a473939465577436759494b6f5a497a6a3045417749770a614445614d4267474131554541777752535735305a5777675530645949464a76623351),
  (64, 0x6751304578476a415942674e5642416f4d45556c756447567349454e760a636e4276636d4630615739754d525177456759445651514844417454595735305953),
  (64, 0x4244624746795954454c4d416b47413155454341774351304578437a414a0a42674e5642415954416c56544d423458445445344d4455794d5445774e5441784d),
  (64, 0x466f58445449314d4455794d5445774e5441784d466f77624445654d4277470a4131554541777756535735305a57776755306459494652445169425461576475),
  (64, 0x6157356e4d526f77474159445651514b4442464a626e526c6243424462334a770a62334a6864476c76626a45554d424947413155454277774c55324675644745),
  (64, 0x6751327868636d4578437a414a42674e564241674d416b4e424d517377435159440a5651514745774a56557a425a4d424d4742797147534d3439416745474343),
  (64, 0x7147534d3439417745484130494142454e464738787a79645752664b3932626d47760a502b6d4168393150457956374a683646474a64356e6445396142483752),
  (64, 0x33453441377562726c682f7a4e3343347876706f6f75476c69724d62612b57326c6a750a7970616a6762557767624977487759445652306a42426777466f4155),
  (64, 0x496d554d316c71644e496e7a6737535655723951477a6b6e4271777755675944565230660a42457377535442486f45576751345a426148523063484d364c7939),
  (64, 0x6a5a584a3061575a70593246305a584d7564484a316333526c5a484e6c636e5a705932567a0a4c6d6c75644756734c6d4e766253394a626e526c62464e485746),
  (64, 0x4a76623352445153356b5a584977485159445652304f42425945464834346774583756536c4b0a51456d4f5259514436525352766652564d4134474131556444),
  (64, 0x7745422f775145417749477744414d42674e5648524d4241663845416a41414d416f47434371470a534d343942414d43413063414d4551434942394338774f41),
  (64, 0x4e2f496d784474474143563234364b63716a61675a4f52306b7963747942727347474a564169416a0a667462724e47734755385948323131645269594e6f5050),
  (64, 0x7531395a702f7a65384a6d68756a42306f42773d3d0a2d2d2d2d2d454e442043455254494649434154452d2d2d2d2d0a2d2d2d2d2d424547494e204345525449),
  (64, 0x4649434154452d2d2d2d2d0a4d4949436a7a4343416a53674177494241674955496d554d316c71644e496e7a6737535655723951477a6b6e4271777743675949),
  (64, 0x4b6f5a497a6a3045417749770a614445614d4267474131554541777752535735305a5777675530645949464a766233516751304578476a415942674e5642416f),
  (64, 0x4d45556c756447567349454e760a636e4276636d4630615739754d5251774567594456515148444174545957353059534244624746795954454c4d416b474131),
  (64, 0x55454341774351304578437a414a0a42674e5642415954416c56544d423458445445344d4455794d5445774e4455784d466f58445451354d54497a4d54497a4e),
  (64, 0x546b314f566f77614445614d4267470a4131554541777752535735305a5777675530645949464a766233516751304578476a415942674e5642416f4d45556c75),
  (64, 0x6447567349454e76636e4276636d46300a615739754d5251774567594456515148444174545957353059534244624746795954454c4d416b4741315545434177),
  (64, 0x4351304578437a414a42674e56424159540a416c56544d466b77457759484b6f5a497a6a3043415159494b6f5a497a6a3044415163445167414543366e45774d),
  (64, 0x4449595a4f6a2f69505773437a61454b69370a314f694f534c52466857476a626e42564a66566e6b59347533496a6b4459594c304d784f346d717379596a6c42),
  (64, 0x616c54565978465032734a424b357a6c4b4f420a757a43427544416642674e5648534d4547444157674251695a517a575770303069664f44744a565376314162),
  (64, 0x4f5363477244425342674e5648523845537a424a0a4d45656752614244686b466f64485277637a6f764c324e6c636e52705a6d6c6a5958526c63793530636e56),
  (64, 0x7a6447566b63325679646d6c6a5a584d75615735300a5a577775593239744c306c756447567355306459556d397664454e424c6d526c636a416442674e564851),
  (64, 0x344546675155496d554d316c71644e496e7a673753560a55723951477a6b6e4271777744675944565230504151482f42415144416745474d4249474131556445),
  (64, 0x7745422f7751494d4159424166384341514577436759490a4b6f5a497a6a3045417749445351417752674968414f572f35516b522b533943695344634e6f6f77),
  (64, 0x4c7550524c735747662f59693747535839344267775477670a41694541344a306c72486f4d732b586f356f2f7358364f39515778485241765a55474f64525137),
  (35, 0x63767152586171493d0a2d2d2d2d2d454e442043455254494649434154452d2d2d2d2d)]

/-- `DCAP_QUOTE_CERT`, teerex/sgx-verify/test-data/dcap/dcap_quote_cert.der (base64 text without line breaks). -/
def quoteCert : Bytes := unhex [
  (64, 0x4d4949456a6a4343424453674177494241674956414d7957716c44336d6b7875324668597550747243703262496430364d416f4743437147534d343942414d43),
  (64, 0x4d484578497a416842674e5642414d4d476b6c756447567349464e48574342515130736755484a765932567a6332397949454e424d526f77474159445651514b),
  (64, 0x4442464a626e526c6243424462334a7762334a6864476c76626a45554d424947413155454277774c553246756447456751327868636d4578437a414a42674e56),
  (64, 0x4241674d416b4e424d517377435159445651514745774a56557a4165467730794d6a41314d6a4d784e5441334d445261467730794f5441314d6a4d784e544133),
  (64, 0x4d4452614d484178496a416742674e5642414d4d47556c756447567349464e4857434251513073675132567964476c6d61574e6864475578476a415942674e56),
  (64, 0x42416f4d45556c756447567349454e76636e4276636d4630615739754d5251774567594456515148444174545957353059534244624746795954454c4d416b47),
  (64, 0x413155454341774351304578437a414a42674e5642415954416c56544d466b77457759484b6f5a497a6a3043415159494b6f5a497a6a30444151634451674145),
  (64, 0x37704d79715864484f6f5664755a4147386a33576c69753046595768542b746a6a596a3954646c6d723531783869756448444754785655326f655a436e686561),
  (64, 0x7451757143424a306856374136674c6e3566765862714f434171677767674b6b4d42384741315564497751594d426141464e446f71747031312f6b7553526559),
  (64, 0x504873555a644456386c6c4e4d477747413155644877526c4d474d77596142666f463247573268306448427a4f693876595842704c6e527964584e305a57527a),
  (64, 0x5a584a3261574e6c63793570626e526c6243356a62323076633264344c324e6c636e52705a6d6c6a5958527062323476646a4d7663474e7259334a7350324e68),
  (64, 0x5058427962324e6c63334e7663695a6c626d4e765a476c755a7a316b5a584977485159445652304f4242594546505731556f7635556379316a48674365427078),
  (64, 0x62362f746b67706f4d41344741315564447745422f775145417749477744414d42674e5648524d4241663845416a41414d4949423141594a4b6f5a496876684e),
  (64, 0x415130424249494278544343416345774867594b4b6f5a496876684e41513042415151517339354442756b714d4244514a79724548346f547844434341575147),
  (64, 0x43697147534962345451454e41514977676746554d42414743797147534962345451454e41514942416745524d42414743797147534962345451454e41514943),
  (64, 0x416745524d42414743797147534962345451454e41514944416745434d42414743797147534962345451454e41514945416745454d4241474379714753496234),
  (64, 0x5451454e41514946416745424d42454743797147534962345451454e41514947416749416744415142677371686b69472b4530424451454342774942427a4151),
  (64, 0x42677371686b69472b45304244514543434149424144415142677371686b69472b45304244514543435149424144415142677371686b69472b45304244514543),
  (64, 0x436749424144415142677371686b69472b45304244514543437749424144415142677371686b69472b45304244514543444149424144415142677371686b6947),
  (64, 0x2b45304244514543445149424144415142677371686b69472b45304244514543446749424144415142677371686b69472b453042445145434477494241444151),
  (64, 0x42677371686b69472b45304244514543454149424144415142677371686b69472b4530424451454345514942437a416642677371686b69472b45304244514543),
  (64, 0x4567515145524543424147414277414141414141414141414144415142676f71686b69472b45304244514544424149414144415542676f71686b69472b453042),
  (64, 0x44514545424159416b473668414141774477594b4b6f5a496876684e4151304242516f424144414b42676771686b6a4f5051514441674e494144424641694234),
  (64, 0x323075786c314e637868366a3143744931634a48735a787657673030633165525757593270725457505149684149686d6d51554f637952787562525579474857),
  (24, 0x2f53624d6a563576365a5656516e324949755a55574d3634)]

/-- `QE_IDENTITY_CERT`, teerex/sgx-verify/test-data/dcap/qe_identity_cert.pem (without line breaks). -/
def qeIdentityCert : Bytes := unhex [
  (64, 0x4d494943697a4343416a4b674177494241674955666a6943316674564b5570415359354668415070464a473939465577436759494b6f5a497a6a304541774977),
  (64, 0x614445614d4267474131554541777752535735305a5777675530645949464a766233516751304578476a415942674e5642416f4d45556c756447567349454e76),
  (64, 0x636e4276636d4630615739754d5251774567594456515148444174545957353059534244624746795954454c4d416b47413155454341774351304578437a414a),
  (64, 0x42674e5642415954416c56544d423458445445344d4455794d5445774e5441784d466f58445449314d4455794d5445774e5441784d466f77624445654d427747),
  (64, 0x4131554541777756535735305a577767553064594946524451694254615764756157356e4d526f77474159445651514b4442464a626e526c6243424462334a77),
  (64, 0x62334a6864476c76626a45554d424947413155454277774c553246756447456751327868636d4578437a414a42674e564241674d416b4e424d51737743515944),
  (64, 0x5651514745774a56557a425a4d424d4742797147534d34394167454743437147534d3439417745484130494142454e464738787a79645752664b3932626d4776),
  (64, 0x502b6d4168393150457956374a683646474a64356e644539614248375233453441377562726c682f7a4e3343347876706f6f75476c69724d62612b57326c6a75),
  (64, 0x7970616a6762557767624977487759445652306a42426777466f4155496d554d316c71644e496e7a6737535655723951477a6b6e427177775567594456523066),
  (64, 0x42457377535442486f45576751345a426148523063484d364c79396a5a584a3061575a70593246305a584d7564484a316333526c5a484e6c636e5a705932567a),
  (64, 0x4c6d6c75644756734c6d4e766253394a626e526c62464e4857464a76623352445153356b5a584977485159445652304f42425945464834346774583756536c4b),
  (64, 0x51456d4f5259514436525352766652564d41344741315564447745422f775145417749477744414d42674e5648524d4241663845416a41414d416f4743437147),
  (64, 0x534d343942414d43413063414d4551434942394338774f414e2f496d784474474143563234364b63716a61675a4f52306b7963747942727347474a564169416a),
  (44, 0x667462724e47734755385948323131645269594e6f50507531395a702f7a65384a6d68756a42306f42773d3d)]

/-- teerex/sgx-verify/test-data/dcap/qe_identity.json. -/
def qeIdentityJson : Bytes := unhex [
  (64, 0x7b22656e636c6176654964656e74697479223a7b226964223a225145222c2276657273696f6e223a322c22697373756544617465223a22323032322d31322d30),
  (64, 0x345432323a34353a33335a222c226e657874557064617465223a22323032332d30312d30335432323a34353a33335a222c227463624576616c756174696f6e44),
  (64, 0x6174614e756d626572223a31332c226d69736373656c656374223a223030303030303030222c226d69736373656c6563744d61736b223a224646464646464646),
  (64, 0x222c2261747472696275746573223a223131303030303030303030303030303030303030303030303030303030303030222c22617474726962757465734d6173),
  (64, 0x6b223a224642464646464646464646464646464630303030303030303030303030303030222c226d727369676e6572223a223843344635373735443739363530),
  (64, 0x3345393631333746373743363841383239413030353641433844454437303134304230383142303934343930433537424646222c2269737670726f646964223a),
  (64, 0x312c227463624c6576656c73223a5b7b22746362223a7b2269737673766e223a367d2c2274636244617465223a22323032322d31312d30395430303a30303a30),
  (64, 0x305a222c22746362537461747573223a225570546f44617465227d2c7b22746362223a7b2269737673766e223a357d2c2274636244617465223a22323032302d),
  (64, 0x31312d31315430303a30303a30305a222c22746362537461747573223a224f75744f6644617465222c2261647669736f7279494473223a5b22494e54454c2d53),
  (64, 0x412d3030343737225d7d2c7b22746362223a7b2269737673766e223a347d2c2274636244617465223a22323031392d31312d31335430303a30303a30305a222c),
  (64, 0x22746362537461747573223a224f75744f6644617465222c2261647669736f7279494473223a5b22494e54454c2d53412d3030333334222c22494e54454c2d53),
  (64, 0x412d3030343737225d7d2c7b22746362223a7b2269737673766e223a327d2c2274636244617465223a22323031392d30352d31355430303a30303a30305a222c),
  (64, 0x22746362537461747573223a224f75744f6644617465222c2261647669736f7279494473223a5b22494e54454c2d53412d3030323139222c22494e54454c2d53),
  (64, 0x412d3030323933222c22494e54454c2d53412d3030333334222c22494e54454c2d53412d3030343737225d7d2c7b22746362223a7b2269737673766e223a317d),
  (64, 0x2c2274636244617465223a22323031382d30382d31355430303a30303a30305a222c22746362537461747573223a224f75744f6644617465222c226164766973),
  (64, 0x6f7279494473223a5b22494e54454c2d53412d3030323032222c22494e54454c2d53412d3030323139222c22494e54454c2d53412d3030323933222c22494e54),
  (64, 0x454c2d53412d3030333334222c22494e54454c2d53412d3030343737225d7d5d7d2c227369676e6174757265223a223437616363626133323165353763323037),
  (64, 0x32326130643364316462313163396235323636313233393835376463353738636131626465313339373665653238386366333966373231313166666534343563),
  (49, 0x3733383965663536343437633739653330653662383361383836336564393838306465356264653461386435633931227d)]

/-- teerex/sgx-verify/test-data/dcap/tcb_info.json. -/
def tcbInfoJson : Bytes := unhex [
  (64, 0x7b22746362496e666f223a7b226964223a22534758222c2276657273696f6e223a332c22697373756544617465223a22323032322d31312d31375431323a3435),
  (64, 0x3a33325a222c226e657874557064617465223a22323032332d30342d31365431323a34353a33325a222c22666d737063223a2230303930364541313030303022),
  (64, 0x2c227063654964223a2230303030222c2274636254797065223a302c227463624576616c756174696f6e446174614e756d626572223a31322c227463624c6576),
  (64, 0x656c73223a5b7b22746362223a7b22736778746362636f6d706f6e656e7473223a5b7b2273766e223a31377d2c7b2273766e223a31377d2c7b2273766e223a32),
  (64, 0x7d2c7b2273766e223a347d2c7b2273766e223a317d2c7b2273766e223a3132387d2c7b2273766e223a377d2c7b2273766e223a307d2c7b2273766e223a307d2c),
  (64, 0x7b2273766e223a307d2c7b2273766e223a307d2c7b2273766e223a307d2c7b2273766e223a307d2c7b2273766e223a307d2c7b2273766e223a307d2c7b227376),
  (64, 0x6e223a307d5d2c2270636573766e223a31317d2c2274636244617465223a22323032312d31312d31305430303a30303a30305a222c2274636253746174757322),
  (64, 0x3a22535748617264656e696e674e6565646564222c2261647669736f7279494473223a5b22494e54454c2d53412d3030333334225d7d2c7b22746362223a7b22),
  (64, 0x736778746362636f6d706f6e656e7473223a5b7b2273766e223a31377d2c7b2273766e223a31377d2c7b2273766e223a327d2c7b2273766e223a347d2c7b2273),
  (64, 0x766e223a317d2c7b2273766e223a3132387d2c7b2273766e223a377d2c7b2273766e223a307d2c7b2273766e223a307d2c7b2273766e223a307d2c7b2273766e),
  (64, 0x223a307d2c7b2273766e223a307d2c7b2273766e223a307d2c7b2273766e223a307d2c7b2273766e223a307d2c7b2273766e223a307d5d2c2270636573766e22),
  (64, 0x3a31307d2c2274636244617465223a22323032302d31312d31315430303a30303a30305a222c22746362537461747573223a224f75744f6644617465222c2261),
  (64, 0x647669736f7279494473223a5b22494e54454c2d53412d3030313631222c22494e54454c2d53412d3030323139222c22494e54454c2d53412d3030323839222c),
  (64, 0x22494e54454c2d53412d3030333334225d7d2c7b22746362223a7b22736778746362636f6d706f6e656e7473223a5b7b2273766e223a31377d2c7b2273766e22),
  (64, 0x3a31377d2c7b2273766e223a327d2c7b2273766e223a347d2c7b2273766e223a317d2c7b2273766e223a3132387d2c7b2273766e223a307d2c7b2273766e223a),
  (64, 0x307d2c7b2273766e223a307d2c7b2273766e223a307d2c7b2273766e223a307d2c7b2273766e223a307d2c7b2273766e223a307d2c7b2273766e223a307d2c7b),
  (64, 0x2273766e223a307d2c7b2273766e223a307d5d2c2270636573766e223a31317d2c2274636244617465223a22323032312d31312d31305430303a30303a30305a),
  (64, 0x222c22746362537461747573223a22436f6e66696775726174696f6e416e64535748617264656e696e674e6565646564222c2261647669736f7279494473223a),
  (64, 0x5b22494e54454c2d53412d3030313631222c22494e54454c2d53412d3030323139222c22494e54454c2d53412d3030323839222c22494e54454c2d53412d3030),
  (64, 0x333334225d7d2c7b22746362223a7b22736778746362636f6d706f6e656e7473223a5b7b2273766e223a31377d2c7b2273766e223a31377d2c7b2273766e223a),
  (64, 0x327d2c7b2273766e223a347d2c7b2273766e223a317d2c7b2273766e223a3132387d2c7b2273766e223a307d2c7b2273766e223a307d2c7b2273766e223a307d),
  (64, 0x2c7b2273766e223a307d2c7b2273766e223a307d2c7b2273766e223a307d2c7b2273766e223a307d2c7b2273766e223a307d2c7b2273766e223a307d2c7b2273),
  (64, 0x766e223a307d5d2c2270636573766e223a31307d2c2274636244617465223a22323032302d31312d31315430303a30303a30305a222c22746362537461747573),
  (64, 0x223a224f75744f6644617465436f6e66696775726174696f6e4e6565646564222c2261647669736f7279494473223a5b22494e54454c2d53412d303034373722),
  (64, 0x2c22494e54454c2d53412d3030313631222c22494e54454c2d53412d3030323139222c22494e54454c2d53412d3030323839222c22494e54454c2d53412d3030),
  (64, 0x333334225d7d2c7b22746362223a7b22736778746362636f6d706f6e656e7473223a5b7b2273766e223a31357d2c7b2273766e223a31357d2c7b2273766e223a),
  (64, 0x327d2c7b2273766e223a347d2c7b2273766e223a317d2c7b2273766e223a3132387d2c7b2273766e223a377d2c7b2273766e223a307d2c7b2273766e223a307d),
  (64, 0x2c7b2273766e223a307d2c7b2273766e223a307d2c7b2273766e223a307d2c7b2273766e223a307d2c7b2273766e223a307d2c7b2273766e223a307d2c7b2273),
  (64, 0x766e223a307d5d2c2270636573766e223a31307d2c2274636244617465223a22323032302d30362d31305430303a30303a30305a222c22746362537461747573),
  (64, 0x223a224f75744f6644617465222c2261647669736f7279494473223a5b22494e54454c2d53412d3030333831222c22494e54454c2d53412d3030333839222c22),
  (64, 0x494e54454c2d53412d3030343737222c22494e54454c2d53412d3030313631222c22494e54454c2d53412d3030323139222c22494e54454c2d53412d30303238),
  (64, 0x39222c22494e54454c2d53412d3030333334225d7d2c7b22746362223a7b22736778746362636f6d706f6e656e7473223a5b7b2273766e223a31357d2c7b2273),
  (64, 0x766e223a31357d2c7b2273766e223a327d2c7b2273766e223a347d2c7b2273766e223a317d2c7b2273766e223a3132387d2c7b2273766e223a307d2c7b227376),
  (64, 0x6e223a307d2c7b2273766e223a307d2c7b2273766e223a307d2c7b2273766e223a307d2c7b2273766e223a307d2c7b2273766e223a307d2c7b2273766e223a30),
  (64, 0x7d2c7b2273766e223a307d2c7b2273766e223a307d5d2c2270636573766e223a31307d2c2274636244617465223a22323032302d30362d31305430303a30303a),
  (64, 0x30305a222c22746362537461747573223a224f75744f6644617465436f6e66696775726174696f6e4e6565646564222c2261647669736f7279494473223a5b22),
  (64, 0x494e54454c2d53412d3030313631222c22494e54454c2d53412d3030323139222c22494e54454c2d53412d3030323839222c22494e54454c2d53412d30303338),
  (64, 0x31222c22494e54454c2d53412d3030333839222c22494e54454c2d53412d3030343737222c22494e54454c2d53412d3030333334225d7d2c7b22746362223a7b),
  (64, 0x22736778746362636f6d706f6e656e7473223a5b7b2273766e223a31347d2c7b2273766e223a31347d2c7b2273766e223a327d2c7b2273766e223a347d2c7b22),
  (64, 0x73766e223a317d2c7b2273766e223a3132387d2c7b2273766e223a377d2c7b2273766e223a307d2c7b2273766e223a307d2c7b2273766e223a307d2c7b227376),
  (64, 0x6e223a307d2c7b2273766e223a307d2c7b2273766e223a307d2c7b2273766e223a307d2c7b2273766e223a307d2c7b2273766e223a307d5d2c2270636573766e),
  (64, 0x223a31307d2c2274636244617465223a22323031392d31322d31315430303a30303a30305a222c22746362537461747573223a224f75744f6644617465222c22),
  (64, 0x61647669736f7279494473223a5b22494e54454c2d53412d3030333230222c22494e54454c2d53412d3030333239222c22494e54454c2d53412d303031363122),
  (64, 0x2c22494e54454c2d53412d3030323139222c22494e54454c2d53412d3030323839222c22494e54454c2d53412d3030333831222c22494e54454c2d53412d3030),
  (64, 0x333839222c22494e54454c2d53412d3030343737222c22494e54454c2d53412d3030333334225d7d2c7b22746362223a7b22736778746362636f6d706f6e656e),
  (64, 0x7473223a5b7b2273766e223a31347d2c7b2273766e223a31347d2c7b2273766e223a327d2c7b2273766e223a347d2c7b2273766e223a317d2c7b2273766e223a),
  (64, 0x3132387d2c7b2273766e223a307d2c7b2273766e223a307d2c7b2273766e223a307d2c7b2273766e223a307d2c7b2273766e223a307d2c7b2273766e223a307d),
  (64, 0x2c7b2273766e223a307d2c7b2273766e223a307d2c7b2273766e223a307d2c7b2273766e223a307d5d2c2270636573766e223a31307d2c227463624461746522),
  (64, 0x3a22323031392d31322d31315430303a30303a30305a222c22746362537461747573223a224f75744f6644617465436f6e66696775726174696f6e4e65656465),
  (64, 0x64222c2261647669736f7279494473223a5b22494e54454c2d53412d3030313631222c22494e54454c2d53412d3030323139222c22494e54454c2d53412d3030),
  (64, 0x323839222c22494e54454c2d53412d3030333230222c22494e54454c2d53412d3030333239222c22494e54454c2d53412d3030333831222c22494e54454c2d53),
  (64, 0x412d3030333839222c22494e54454c2d53412d3030343737222c22494e54454c2d53412d3030333334225d7d2c7b22746362223a7b22736778746362636f6d70),
  (64, 0x6f6e656e7473223a5b7b2273766e223a31337d2c7b2273766e223a31337d2c7b2273766e223a327d2c7b2273766e223a347d2c7b2273766e223a317d2c7b2273),
  (64, 0x766e223a3132387d2c7b2273766e223a337d2c7b2273766e223a307d2c7b2273766e223a307d2c7b2273766e223a307d2c7b2273766e223a307d2c7b2273766e),
  (64, 0x223a307d2c7b2273766e223a307d2c7b2273766e223a307d2c7b2273766e223a307d2c7b2273766e223a307d5d2c2270636573766e223a397d2c227463624461),
  (64, 0x7465223a22323031392d31312d31335430303a30303a30305a222c22746362537461747573223a224f75744f6644617465222c2261647669736f727949447322),
  (64, 0x3a5b22494e54454c2d53412d3030313631222c22494e54454c2d53412d3030323139222c22494e54454c2d53412d3030323839222c22494e54454c2d53412d30),
  (64, 0x30333230222c22494e54454c2d53412d3030333239222c22494e54454c2d53412d3030333831222c22494e54454c2d53412d3030333839222c22494e54454c2d),
  (64, 0x53412d3030343737222c22494e54454c2d53412d3030333334225d7d2c7b22746362223a7b22736778746362636f6d706f6e656e7473223a5b7b2273766e223a),
  (64, 0x31337d2c7b2273766e223a31337d2c7b2273766e223a327d2c7b2273766e223a347d2c7b2273766e223a317d2c7b2273766e223a3132387d2c7b2273766e223a),
  (64, 0x307d2c7b2273766e223a307d2c7b2273766e223a307d2c7b2273766e223a307d2c7b2273766e223a307d2c7b2273766e223a307d2c7b2273766e223a307d2c7b),
  (64, 0x2273766e223a307d2c7b2273766e223a307d2c7b2273766e223a307d5d2c2270636573766e223a397d2c2274636244617465223a22323031392d31312d313354),
  (64, 0x30303a30303a30305a222c22746362537461747573223a224f75744f6644617465436f6e66696775726174696f6e4e6565646564222c2261647669736f727949),
  (64, 0x4473223a5b22494e54454c2d53412d3030313631222c22494e54454c2d53412d3030323139222c22494e54454c2d53412d3030323839222c22494e54454c2d53),
  (64, 0x412d3030333230222c22494e54454c2d53412d3030333239222c22494e54454c2d53412d3030333831222c22494e54454c2d53412d3030333839222c22494e54),
  (64, 0x454c2d53412d3030343737222c22494e54454c2d53412d3030333334225d7d2c7b22746362223a7b22736778746362636f6d706f6e656e7473223a5b7b227376),
  (64, 0x6e223a367d2c7b2273766e223a367d2c7b2273766e223a327d2c7b2273766e223a347d2c7b2273766e223a317d2c7b2273766e223a3132387d2c7b2273766e22),
  (64, 0x3a317d2c7b2273766e223a307d2c7b2273766e223a307d2c7b2273766e223a307d2c7b2273766e223a307d2c7b2273766e223a307d2c7b2273766e223a307d2c),
  (64, 0x7b2273766e223a307d2c7b2273766e223a307d2c7b2273766e223a307d5d2c2270636573766e223a377d2c2274636244617465223a22323031392d30352d3135),
  (64, 0x5430303a30303a30305a222c22746362537461747573223a224f75744f6644617465222c2261647669736f7279494473223a5b22494e54454c2d53412d303032),
  (64, 0x3230222c22494e54454c2d53412d3030323730222c22494e54454c2d53412d3030323933222c22494e54454c2d53412d3030313631222c22494e54454c2d5341),
  (64, 0x2d3030323139222c22494e54454c2d53412d3030323839222c22494e54454c2d53412d3030333230222c22494e54454c2d53412d3030333239222c22494e5445),
  (64, 0x4c2d53412d3030333831222c22494e54454c2d53412d3030333839222c22494e54454c2d53412d3030343737222c22494e54454c2d53412d3030333334225d7d),
  (64, 0x2c7b22746362223a7b22736778746362636f6d706f6e656e7473223a5b7b2273766e223a367d2c7b2273766e223a367d2c7b2273766e223a327d2c7b2273766e),
  (64, 0x223a347d2c7b2273766e223a317d2c7b2273766e223a3132387d2c7b2273766e223a307d2c7b2273766e223a307d2c7b2273766e223a307d2c7b2273766e223a),
  (64, 0x307d2c7b2273766e223a307d2c7b2273766e223a307d2c7b2273766e223a307d2c7b2273766e223a307d2c7b2273766e223a307d2c7b2273766e223a307d5d2c),
  (64, 0x2270636573766e223a377d2c2274636244617465223a22323031392d30352d31355430303a30303a30305a222c22746362537461747573223a224f75744f6644),
  (64, 0x617465436f6e66696775726174696f6e4e6565646564222c2261647669736f7279494473223a5b22494e54454c2d53412d3030313631222c22494e54454c2d53),
  (64, 0x412d3030323230222c22494e54454c2d53412d3030323730222c22494e54454c2d53412d3030323933222c22494e54454c2d53412d3030323139222c22494e54),
  (64, 0x454c2d53412d3030323839222c22494e54454c2d53412d3030333230222c22494e54454c2d53412d3030333239222c22494e54454c2d53412d3030333831222c),
  (64, 0x22494e54454c2d53412d3030333839222c22494e54454c2d53412d3030343737222c22494e54454c2d53412d3030333334225d7d2c7b22746362223a7b227367),
  (64, 0x78746362636f6d706f6e656e7473223a5b7b2273766e223a357d2c7b2273766e223a357d2c7b2273766e223a327d2c7b2273766e223a347d2c7b2273766e223a),
  (64, 0x317d2c7b2273766e223a3132387d2c7b2273766e223a317d2c7b2273766e223a307d2c7b2273766e223a307d2c7b2273766e223a307d2c7b2273766e223a307d),
  (64, 0x2c7b2273766e223a307d2c7b2273766e223a307d2c7b2273766e223a307d2c7b2273766e223a307d2c7b2273766e223a307d5d2c2270636573766e223a377d2c),
  (64, 0x2274636244617465223a22323031392d30312d30395430303a30303a30305a222c22746362537461747573223a224f75744f6644617465222c2261647669736f),
  (64, 0x7279494473223a5b22494e54454c2d53412d3030323333222c22494e54454c2d53412d3030313631222c22494e54454c2d53412d3030323230222c22494e5445),
  (64, 0x4c2d53412d3030323730222c22494e54454c2d53412d3030323933222c22494e54454c2d53412d3030323139222c22494e54454c2d53412d3030323839222c22),
  (64, 0x494e54454c2d53412d3030333230222c22494e54454c2d53412d3030333239222c22494e54454c2d53412d3030333831222c22494e54454c2d53412d30303338),
  (64, 0x39222c22494e54454c2d53412d3030343737222c22494e54454c2d53412d3030333334225d7d2c7b22746362223a7b22736778746362636f6d706f6e656e7473),
  (64, 0x223a5b7b2273766e223a357d2c7b2273766e223a357d2c7b2273766e223a327d2c7b2273766e223a347d2c7b2273766e223a317d2c7b2273766e223a3132387d),
  (64, 0x2c7b2273766e223a317d2c7b2273766e223a307d2c7b2273766e223a307d2c7b2273766e223a307d2c7b2273766e223a307d2c7b2273766e223a307d2c7b2273),
  (64, 0x766e223a307d2c7b2273766e223a307d2c7b2273766e223a307d2c7b2273766e223a307d5d2c2270636573766e223a367d2c2274636244617465223a22323031),
  (64, 0x382d30382d31355430303a30303a30305a222c22746362537461747573223a224f75744f6644617465222c2261647669736f7279494473223a5b22494e54454c),
  (64, 0x2d53412d3030313631222c22494e54454c2d53412d3030323333222c22494e54454c2d53412d3030323230222c22494e54454c2d53412d3030323730222c2249),
  (64, 0x4e54454c2d53412d3030323933222c22494e54454c2d53412d3030323139222c22494e54454c2d53412d3030323839222c22494e54454c2d53412d3030333230),
  (64, 0x222c22494e54454c2d53412d3030333239222c22494e54454c2d53412d3030333831222c22494e54454c2d53412d3030333839222c22494e54454c2d53412d30),
  (64, 0x30343737222c22494e54454c2d53412d3030333334225d7d2c7b22746362223a7b22736778746362636f6d706f6e656e7473223a5b7b2273766e223a357d2c7b),
  (64, 0x2273766e223a357d2c7b2273766e223a327d2c7b2273766e223a347d2c7b2273766e223a317d2c7b2273766e223a3132387d2c7b2273766e223a307d2c7b2273),
  (64, 0x766e223a307d2c7b2273766e223a307d2c7b2273766e223a307d2c7b2273766e223a307d2c7b2273766e223a307d2c7b2273766e223a307d2c7b2273766e223a),
  (64, 0x307d2c7b2273766e223a307d2c7b2273766e223a307d5d2c2270636573766e223a377d2c2274636244617465223a22323031392d30312d30395430303a30303a),
  (64, 0x30305a222c22746362537461747573223a224f75744f6644617465436f6e66696775726174696f6e4e6565646564222c2261647669736f7279494473223a5b22),
  (64, 0x494e54454c2d53412d3030313631222c22494e54454c2d53412d3030323333222c22494e54454c2d53412d3030323230222c22494e54454c2d53412d30303237),
  (64, 0x30222c22494e54454c2d53412d3030323933222c22494e54454c2d53412d3030323139222c22494e54454c2d53412d3030323839222c22494e54454c2d53412d),
  (64, 0x3030333230222c22494e54454c2d53412d3030333239222c22494e54454c2d53412d3030333831222c22494e54454c2d53412d3030333839222c22494e54454c),
  (64, 0x2d53412d3030343737222c22494e54454c2d53412d3030333334225d7d2c7b22746362223a7b22736778746362636f6d706f6e656e7473223a5b7b2273766e22),
  (64, 0x3a357d2c7b2273766e223a357d2c7b2273766e223a327d2c7b2273766e223a347d2c7b2273766e223a317d2c7b2273766e223a3132387d2c7b2273766e223a30),
  (64, 0x7d2c7b2273766e223a307d2c7b2273766e223a307d2c7b2273766e223a307d2c7b2273766e223a307d2c7b2273766e223a307d2c7b2273766e223a307d2c7b22),
  (64, 0x73766e223a307d2c7b2273766e223a307d2c7b2273766e223a307d5d2c2270636573766e223a367d2c2274636244617465223a22323031382d30382d31355430),
  (64, 0x303a30303a30305a222c22746362537461747573223a224f75744f6644617465436f6e66696775726174696f6e4e6565646564222c2261647669736f72794944),
  (64, 0x73223a5b22494e54454c2d53412d3030323033222c22494e54454c2d53412d3030313631222c22494e54454c2d53412d3030323333222c22494e54454c2d5341),
  (64, 0x2d3030323230222c22494e54454c2d53412d3030323730222c22494e54454c2d53412d3030323933222c22494e54454c2d53412d3030323139222c22494e5445),
  (64, 0x4c2d53412d3030323839222c22494e54454c2d53412d3030333230222c22494e54454c2d53412d3030333239222c22494e54454c2d53412d3030333831222c22),
  (64, 0x494e54454c2d53412d3030333839222c22494e54454c2d53412d3030343737222c22494e54454c2d53412d3030333334225d7d2c7b22746362223a7b22736778),
  (64, 0x746362636f6d706f6e656e7473223a5b7b2273766e223a347d2c7b2273766e223a347d2c7b2273766e223a327d2c7b2273766e223a347d2c7b2273766e223a31),
  (64, 0x7d2c7b2273766e223a3132387d2c7b2273766e223a307d2c7b2273766e223a307d2c7b2273766e223a307d2c7b2273766e223a307d2c7b2273766e223a307d2c),
  (64, 0x7b2273766e223a307d2c7b2273766e223a307d2c7b2273766e223a307d2c7b2273766e223a307d2c7b2273766e223a307d5d2c2270636573766e223a357d2c22),
  (64, 0x74636244617465223a22323031382d30312d30345430303a30303a30305a222c22746362537461747573223a224f75744f6644617465222c2261647669736f72),
  (64, 0x79494473223a5b22494e54454c2d53412d3030313036222c22494e54454c2d53412d3030313135222c22494e54454c2d53412d3030313335222c22494e54454c),
  (64, 0x2d53412d3030323033222c22494e54454c2d53412d3030313631222c22494e54454c2d53412d3030323333222c22494e54454c2d53412d3030323230222c2249),
  (64, 0x4e54454c2d53412d3030323730222c22494e54454c2d53412d3030323933222c22494e54454c2d53412d3030323139222c22494e54454c2d53412d3030323839),
  (64, 0x222c22494e54454c2d53412d3030333230222c22494e54454c2d53412d3030333239222c22494e54454c2d53412d3030333831222c22494e54454c2d53412d30),
  (64, 0x30333839222c22494e54454c2d53412d3030343737222c22494e54454c2d53412d3030333334225d7d2c7b22746362223a7b22736778746362636f6d706f6e65),
  (64, 0x6e7473223a5b7b2273766e223a327d2c7b2273766e223a327d2c7b2273766e223a327d2c7b2273766e223a347d2c7b2273766e223a317d2c7b2273766e223a31),
  (64, 0x32387d2c7b2273766e223a307d2c7b2273766e223a307d2c7b2273766e223a307d2c7b2273766e223a307d2c7b2273766e223a307d2c7b2273766e223a307d2c),
  (64, 0x7b2273766e223a307d2c7b2273766e223a307d2c7b2273766e223a307d2c7b2273766e223a307d5d2c2270636573766e223a347d2c2274636244617465223a22),
  (64, 0x323031372d30372d32365430303a30303a30305a222c22746362537461747573223a224f75744f6644617465222c2261647669736f7279494473223a5b22494e),
  (64, 0x54454c2d53412d3030303838222c22494e54454c2d53412d3030313036222c22494e54454c2d53412d3030313135222c22494e54454c2d53412d303031333522),
  (64, 0x2c22494e54454c2d53412d3030323033222c22494e54454c2d53412d3030313631222c22494e54454c2d53412d3030323333222c22494e54454c2d53412d3030),
  (64, 0x323230222c22494e54454c2d53412d3030323730222c22494e54454c2d53412d3030323933222c22494e54454c2d53412d3030323139222c22494e54454c2d53),
  (64, 0x412d3030323839222c22494e54454c2d53412d3030333230222c22494e54454c2d53412d3030333239222c22494e54454c2d53412d3030333831222c22494e54),
  (64, 0x454c2d53412d3030333839222c22494e54454c2d53412d3030343737222c22494e54454c2d53412d3030333334225d7d5d7d2c227369676e6174757265223a22),
  (64, 0x37313734366632313438656362613034653335636631616337376137653632363763653939663637383163313033316637323462623562643934623863316236),
  (64, 0x65346330376330316463313531363932616137356265383064666261373335306262383063353833313461363937353138393539376532386539626263373563),
  (2, 0x227d)]

/-- `verify_tcb_info_signature`, teerex/sgx-verify/src/tests.rs L177. -/
def oldTcbInfo : Bytes := unhex [
  (64, 0x7b2276657273696f6e223a322c22697373756544617465223a22323032322d31302d31385432313a34353a30325a222c226e657874557064617465223a223230),
  (64, 0x32322d31312d31375432313a34353a30325a222c22666d737063223a22303039303645413130303030222c227063654964223a2230303030222c227463625479),
  (64, 0x7065223a302c227463624576616c756174696f6e446174614e756d626572223a31322c227463624c6576656c73223a5b7b22746362223a7b2273677874636263),
  (64, 0x6f6d70303173766e223a31372c22736778746362636f6d70303273766e223a31372c22736778746362636f6d70303373766e223a322c22736778746362636f6d),
  (64, 0x70303473766e223a342c22736778746362636f6d70303573766e223a312c22736778746362636f6d70303673766e223a3132382c22736778746362636f6d7030),
  (64, 0x3773766e223a372c22736778746362636f6d70303873766e223a302c22736778746362636f6d70303973766e223a302c22736778746362636f6d70313073766e),
  (64, 0x223a302c22736778746362636f6d70313173766e223a302c22736778746362636f6d70313273766e223a302c22736778746362636f6d70313373766e223a302c),
  (64, 0x22736778746362636f6d70313473766e223a302c22736778746362636f6d70313573766e223a302c22736778746362636f6d70313673766e223a302c22706365),
  (64, 0x73766e223a31317d2c2274636244617465223a22323032312d31312d31305430303a30303a30305a222c22746362537461747573223a22535748617264656e69),
  (64, 0x6e674e6565646564227d2c7b22746362223a7b22736778746362636f6d70303173766e223a31372c22736778746362636f6d70303273766e223a31372c227367),
  (64, 0x78746362636f6d70303373766e223a322c22736778746362636f6d70303473766e223a342c22736778746362636f6d70303573766e223a312c22736778746362),
  (64, 0x636f6d70303673766e223a3132382c22736778746362636f6d70303773766e223a372c22736778746362636f6d70303873766e223a302c22736778746362636f),
  (64, 0x6d70303973766e223a302c22736778746362636f6d70313073766e223a302c22736778746362636f6d70313173766e223a302c22736778746362636f6d703132),
  (64, 0x73766e223a302c22736778746362636f6d70313373766e223a302c22736778746362636f6d70313473766e223a302c22736778746362636f6d70313573766e22),
  (64, 0x3a302c22736778746362636f6d70313673766e223a302c2270636573766e223a31307d2c2274636244617465223a22323032302d31312d31315430303a30303a),
  (64, 0x30305a222c22746362537461747573223a224f75744f6644617465227d2c7b22746362223a7b22736778746362636f6d70303173766e223a31372c2273677874),
  (64, 0x6362636f6d70303273766e223a31372c22736778746362636f6d70303373766e223a322c22736778746362636f6d70303473766e223a342c2273677874636263),
  (64, 0x6f6d70303573766e223a312c22736778746362636f6d70303673766e223a3132382c22736778746362636f6d70303773766e223a302c22736778746362636f6d),
  (64, 0x70303873766e223a302c22736778746362636f6d70303973766e223a302c22736778746362636f6d70313073766e223a302c22736778746362636f6d70313173),
  (64, 0x766e223a302c22736778746362636f6d70313273766e223a302c22736778746362636f6d70313373766e223a302c22736778746362636f6d70313473766e223a),
  (64, 0x302c22736778746362636f6d70313573766e223a302c22736778746362636f6d70313673766e223a302c2270636573766e223a31317d2c227463624461746522),
  (64, 0x3a22323032312d31312d31305430303a30303a30305a222c22746362537461747573223a22436f6e66696775726174696f6e416e64535748617264656e696e67),
  (64, 0x4e6565646564227d2c7b22746362223a7b22736778746362636f6d70303173766e223a31372c22736778746362636f6d70303273766e223a31372c2273677874),
  (64, 0x6362636f6d70303373766e223a322c22736778746362636f6d70303473766e223a342c22736778746362636f6d70303573766e223a312c22736778746362636f),
  (64, 0x6d70303673766e223a3132382c22736778746362636f6d70303773766e223a302c22736778746362636f6d70303873766e223a302c22736778746362636f6d70),
  (64, 0x303973766e223a302c22736778746362636f6d70313073766e223a302c22736778746362636f6d70313173766e223a302c22736778746362636f6d7031327376),
  (64, 0x6e223a302c22736778746362636f6d70313373766e223a302c22736778746362636f6d70313473766e223a302c22736778746362636f6d70313573766e223a30),
  (64, 0x2c22736778746362636f6d70313673766e223a302c2270636573766e223a31307d2c2274636244617465223a22323032302d31312d31315430303a30303a3030),
  (64, 0x5a222c22746362537461747573223a224f75744f6644617465436f6e66696775726174696f6e4e6565646564227d2c7b22746362223a7b22736778746362636f),
  (64, 0x6d70303173766e223a31352c22736778746362636f6d70303273766e223a31352c22736778746362636f6d70303373766e223a322c22736778746362636f6d70),
  (64, 0x303473766e223a342c22736778746362636f6d70303573766e223a312c22736778746362636f6d70303673766e223a3132382c22736778746362636f6d703037),
  (64, 0x73766e223a372c22736778746362636f6d70303873766e223a302c22736778746362636f6d70303973766e223a302c22736778746362636f6d70313073766e22),
  (64, 0x3a302c22736778746362636f6d70313173766e223a302c22736778746362636f6d70313273766e223a302c22736778746362636f6d70313373766e223a302c22),
  (64, 0x736778746362636f6d70313473766e223a302c22736778746362636f6d70313573766e223a302c22736778746362636f6d70313673766e223a302c2270636573),
  (64, 0x766e223a31307d2c2274636244617465223a22323032302d30362d31305430303a30303a30305a222c22746362537461747573223a224f75744f664461746522),
  (64, 0x7d2c7b22746362223a7b22736778746362636f6d70303173766e223a31352c22736778746362636f6d70303273766e223a31352c22736778746362636f6d7030),
  (64, 0x3373766e223a322c22736778746362636f6d70303473766e223a342c22736778746362636f6d70303573766e223a312c22736778746362636f6d70303673766e),
  (64, 0x223a3132382c22736778746362636f6d70303773766e223a302c22736778746362636f6d70303873766e223a302c22736778746362636f6d70303973766e223a),
  (64, 0x302c22736778746362636f6d70313073766e223a302c22736778746362636f6d70313173766e223a302c22736778746362636f6d70313273766e223a302c2273),
  (64, 0x6778746362636f6d70313373766e223a302c22736778746362636f6d70313473766e223a302c22736778746362636f6d70313573766e223a302c227367787463),
  (64, 0x62636f6d70313673766e223a302c2270636573766e223a31307d2c2274636244617465223a22323032302d30362d31305430303a30303a30305a222c22746362),
  (64, 0x537461747573223a224f75744f6644617465436f6e66696775726174696f6e4e6565646564227d2c7b22746362223a7b22736778746362636f6d70303173766e),
  (64, 0x223a31342c22736778746362636f6d70303273766e223a31342c22736778746362636f6d70303373766e223a322c22736778746362636f6d70303473766e223a),
  (64, 0x342c22736778746362636f6d70303573766e223a312c22736778746362636f6d70303673766e223a3132382c22736778746362636f6d70303773766e223a372c),
  (64, 0x22736778746362636f6d70303873766e223a302c22736778746362636f6d70303973766e223a302c22736778746362636f6d70313073766e223a302c22736778),
  (64, 0x746362636f6d70313173766e223a302c22736778746362636f6d70313273766e223a302c22736778746362636f6d70313373766e223a302c2273677874636263),
  (64, 0x6f6d70313473766e223a302c22736778746362636f6d70313573766e223a302c22736778746362636f6d70313673766e223a302c2270636573766e223a31307d),
  (64, 0x2c2274636244617465223a22323031392d31322d31315430303a30303a30305a222c22746362537461747573223a224f75744f6644617465227d2c7b22746362),
  (64, 0x223a7b22736778746362636f6d70303173766e223a31342c22736778746362636f6d70303273766e223a31342c22736778746362636f6d70303373766e223a32),
  (64, 0x2c22736778746362636f6d70303473766e223a342c22736778746362636f6d70303573766e223a312c22736778746362636f6d70303673766e223a3132382c22),
  (64, 0x736778746362636f6d70303773766e223a302c22736778746362636f6d70303873766e223a302c22736778746362636f6d70303973766e223a302c2273677874),
  (64, 0x6362636f6d70313073766e223a302c22736778746362636f6d70313173766e223a302c22736778746362636f6d70313273766e223a302c22736778746362636f),
  (64, 0x6d70313373766e223a302c22736778746362636f6d70313473766e223a302c22736778746362636f6d70313573766e223a302c22736778746362636f6d703136),
  (64, 0x73766e223a302c2270636573766e223a31307d2c2274636244617465223a22323031392d31322d31315430303a30303a30305a222c2274636253746174757322),
  (64, 0x3a224f75744f6644617465436f6e66696775726174696f6e4e6565646564227d2c7b22746362223a7b22736778746362636f6d70303173766e223a31332c2273),
  (64, 0x6778746362636f6d70303273766e223a31332c22736778746362636f6d70303373766e223a322c22736778746362636f6d70303473766e223a342c2273677874),
  (64, 0x6362636f6d70303573766e223a312c22736778746362636f6d70303673766e223a3132382c22736778746362636f6d70303773766e223a332c22736778746362),
  (64, 0x636f6d70303873766e223a302c22736778746362636f6d70303973766e223a302c22736778746362636f6d70313073766e223a302c22736778746362636f6d70),
  (64, 0x313173766e223a302c22736778746362636f6d70313273766e223a302c22736778746362636f6d70313373766e223a302c22736778746362636f6d7031347376),
  (64, 0x6e223a302c22736778746362636f6d70313573766e223a302c22736778746362636f6d70313673766e223a302c2270636573766e223a397d2c22746362446174),
  (64, 0x65223a22323031392d31312d31335430303a30303a30305a222c22746362537461747573223a224f75744f6644617465227d2c7b22746362223a7b2273677874),
  (64, 0x6362636f6d70303173766e223a31332c22736778746362636f6d70303273766e223a31332c22736778746362636f6d70303373766e223a322c22736778746362),
  (64, 0x636f6d70303473766e223a342c22736778746362636f6d70303573766e223a312c22736778746362636f6d70303673766e223a3132382c22736778746362636f),
  (64, 0x6d70303773766e223a302c22736778746362636f6d70303873766e223a302c22736778746362636f6d70303973766e223a302c22736778746362636f6d703130),
  (64, 0x73766e223a302c22736778746362636f6d70313173766e223a302c22736778746362636f6d70313273766e223a302c22736778746362636f6d70313373766e22),
  (64, 0x3a302c22736778746362636f6d70313473766e223a302c22736778746362636f6d70313573766e223a302c22736778746362636f6d70313673766e223a302c22),
  (64, 0x70636573766e223a397d2c2274636244617465223a22323031392d31312d31335430303a30303a30305a222c22746362537461747573223a224f75744f664461),
  (64, 0x7465436f6e66696775726174696f6e4e6565646564227d2c7b22746362223a7b22736778746362636f6d70303173766e223a362c22736778746362636f6d7030),
  (64, 0x3273766e223a362c22736778746362636f6d70303373766e223a322c22736778746362636f6d70303473766e223a342c22736778746362636f6d70303573766e),
  (64, 0x223a312c22736778746362636f6d70303673766e223a3132382c22736778746362636f6d70303773766e223a312c22736778746362636f6d70303873766e223a),
  (64, 0x302c22736778746362636f6d70303973766e223a302c22736778746362636f6d70313073766e223a302c22736778746362636f6d70313173766e223a302c2273),
  (64, 0x6778746362636f6d70313273766e223a302c22736778746362636f6d70313373766e223a302c22736778746362636f6d70313473766e223a302c227367787463),
  (64, 0x62636f6d70313573766e223a302c22736778746362636f6d70313673766e223a302c2270636573766e223a377d2c2274636244617465223a22323031392d3035),
  (64, 0x2d31355430303a30303a30305a222c22746362537461747573223a224f75744f6644617465227d2c7b22746362223a7b22736778746362636f6d70303173766e),
  (64, 0x223a362c22736778746362636f6d70303273766e223a362c22736778746362636f6d70303373766e223a322c22736778746362636f6d70303473766e223a342c),
  (64, 0x22736778746362636f6d70303573766e223a312c22736778746362636f6d70303673766e223a3132382c22736778746362636f6d70303773766e223a302c2273),
  (64, 0x6778746362636f6d70303873766e223a302c22736778746362636f6d70303973766e223a302c22736778746362636f6d70313073766e223a302c227367787463),
  (64, 0x62636f6d70313173766e223a302c22736778746362636f6d70313273766e223a302c22736778746362636f6d70313373766e223a302c22736778746362636f6d),
  (64, 0x70313473766e223a302c22736778746362636f6d70313573766e223a302c22736778746362636f6d70313673766e223a302c2270636573766e223a377d2c2274),
  (64, 0x636244617465223a22323031392d30352d31355430303a30303a30305a222c22746362537461747573223a224f75744f6644617465436f6e6669677572617469),
  (64, 0x6f6e4e6565646564227d2c7b22746362223a7b22736778746362636f6d70303173766e223a352c22736778746362636f6d70303273766e223a352c2273677874),
  (64, 0x6362636f6d70303373766e223a322c22736778746362636f6d70303473766e223a342c22736778746362636f6d70303573766e223a312c22736778746362636f),
  (64, 0x6d70303673766e223a3132382c22736778746362636f6d70303773766e223a312c22736778746362636f6d70303873766e223a302c22736778746362636f6d70),
  (64, 0x303973766e223a302c22736778746362636f6d70313073766e223a302c22736778746362636f6d70313173766e223a302c22736778746362636f6d7031327376),
  (64, 0x6e223a302c22736778746362636f6d70313373766e223a302c22736778746362636f6d70313473766e223a302c22736778746362636f6d70313573766e223a30),
  (64, 0x2c22736778746362636f6d70313673766e223a302c2270636573766e223a377d2c2274636244617465223a22323031392d30312d30395430303a30303a30305a),
  (64, 0x222c22746362537461747573223a224f75744f6644617465227d2c7b22746362223a7b22736778746362636f6d70303173766e223a352c22736778746362636f),
  (64, 0x6d70303273766e223a352c22736778746362636f6d70303373766e223a322c22736778746362636f6d70303473766e223a342c22736778746362636f6d703035),
  (64, 0x73766e223a312c22736778746362636f6d70303673766e223a3132382c22736778746362636f6d70303773766e223a312c22736778746362636f6d7030387376),
  (64, 0x6e223a302c22736778746362636f6d70303973766e223a302c22736778746362636f6d70313073766e223a302c22736778746362636f6d70313173766e223a30),
  (64, 0x2c22736778746362636f6d70313273766e223a302c22736778746362636f6d70313373766e223a302c22736778746362636f6d70313473766e223a302c227367),
  (64, 0x78746362636f6d70313573766e223a302c22736778746362636f6d70313673766e223a302c2270636573766e223a367d2c2274636244617465223a2232303138),
  (64, 0x2d30382d31355430303a30303a30305a222c22746362537461747573223a224f75744f6644617465227d2c7b22746362223a7b22736778746362636f6d703031),
  (64, 0x73766e223a352c22736778746362636f6d70303273766e223a352c22736778746362636f6d70303373766e223a322c22736778746362636f6d70303473766e22),
  (64, 0x3a342c22736778746362636f6d70303573766e223a312c22736778746362636f6d70303673766e223a3132382c22736778746362636f6d70303773766e223a30),
  (64, 0x2c22736778746362636f6d70303873766e223a302c22736778746362636f6d70303973766e223a302c22736778746362636f6d70313073766e223a302c227367),
  (64, 0x78746362636f6d70313173766e223a302c22736778746362636f6d70313273766e223a302c22736778746362636f6d70313373766e223a302c22736778746362),
  (64, 0x636f6d70313473766e223a302c22736778746362636f6d70313573766e223a302c22736778746362636f6d70313673766e223a302c2270636573766e223a377d),
  (64, 0x2c2274636244617465223a22323031392d30312d30395430303a30303a30305a222c22746362537461747573223a224f75744f6644617465436f6e6669677572),
  (64, 0x6174696f6e4e6565646564227d2c7b22746362223a7b22736778746362636f6d70303173766e223a352c22736778746362636f6d70303273766e223a352c2273),
  (64, 0x6778746362636f6d70303373766e223a322c22736778746362636f6d70303473766e223a342c22736778746362636f6d70303573766e223a312c227367787463),
  (64, 0x62636f6d70303673766e223a3132382c22736778746362636f6d70303773766e223a302c22736778746362636f6d70303873766e223a302c2273677874636263),
  (64, 0x6f6d70303973766e223a302c22736778746362636f6d70313073766e223a302c22736778746362636f6d70313173766e223a302c22736778746362636f6d7031),
  (64, 0x3273766e223a302c22736778746362636f6d70313373766e223a302c22736778746362636f6d70313473766e223a302c22736778746362636f6d70313573766e),
  (64, 0x223a302c22736778746362636f6d70313673766e223a302c2270636573766e223a367d2c2274636244617465223a22323031382d30382d31355430303a30303a),
  (64, 0x30305a222c22746362537461747573223a224f75744f6644617465436f6e66696775726174696f6e4e6565646564227d2c7b22746362223a7b22736778746362),
  (64, 0x636f6d70303173766e223a342c22736778746362636f6d70303273766e223a342c22736778746362636f6d70303373766e223a322c22736778746362636f6d70),
  (64, 0x303473766e223a342c22736778746362636f6d70303573766e223a312c22736778746362636f6d70303673766e223a3132382c22736778746362636f6d703037),
  (64, 0x73766e223a302c22736778746362636f6d70303873766e223a302c22736778746362636f6d70303973766e223a302c22736778746362636f6d70313073766e22),
  (64, 0x3a302c22736778746362636f6d70313173766e223a302c22736778746362636f6d70313273766e223a302c22736778746362636f6d70313373766e223a302c22),
  (64, 0x736778746362636f6d70313473766e223a302c22736778746362636f6d70313573766e223a302c22736778746362636f6d70313673766e223a302c2270636573),
  (64, 0x766e223a357d2c2274636244617465223a22323031382d30312d30345430303a30303a30305a222c22746362537461747573223a224f75744f6644617465227d),
  (64, 0x2c7b22746362223a7b22736778746362636f6d70303173766e223a322c22736778746362636f6d70303273766e223a322c22736778746362636f6d7030337376),
  (64, 0x6e223a322c22736778746362636f6d70303473766e223a342c22736778746362636f6d70303573766e223a312c22736778746362636f6d70303673766e223a31),
  (64, 0x32382c22736778746362636f6d70303773766e223a302c22736778746362636f6d70303873766e223a302c22736778746362636f6d70303973766e223a302c22),
  (64, 0x736778746362636f6d70313073766e223a302c22736778746362636f6d70313173766e223a302c22736778746362636f6d70313273766e223a302c2273677874),
  (64, 0x6362636f6d70313373766e223a302c22736778746362636f6d70313473766e223a302c22736778746362636f6d70313573766e223a302c22736778746362636f),
  (64, 0x6d70313673766e223a302c2270636573766e223a347d2c2274636244617465223a22323031372d30372d32365430303a30303a30305a222c2274636253746174),
  (18, 0x7573223a224f75744f6644617465227d5d7d)]

/-- `verify_tcb_info_signature`, teerex/sgx-verify/src/tests.rs L178. -/
def oldTcbInfoSig : Bytes := unhex [
  (64, 0xe0cc3102e9ffdb21cf156ba30f13d027210ab11f3bff349e670e4c49b2f0cb6889c7eeb436149c7efe53e15c97e6ec3fc9f34c3440e732a4c760f8eb91834a36)]

end Verif.Conf.Data
