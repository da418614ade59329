import Verif.Ctl2844.Model

/-!
# Control storage of the 2844

Written by `tools/gen_ros44.py` from `/repo/src/model2844/model2844_ros.txt`; do not edit.
Each row holds 64 words of 45 bits, the fields `struct ROS_2844` uses as
`/repo/src/model2844/cros2844.c` reads them.  Addresses the listing leaves out are zero, as
`ros_2844` is.
-/

namespace Verif.Ctl2844

/-- 64 words of control storage, the first in the low bits. -/
def rosRow (r : Nat) : Nat :=
  match r with
  | 0 => 0x831c01400c0418201200080803c5104b20001e2800000001b044000034278a000040006c1100000001e2800000494e1b8002ac1ec0a20500001900e00040039a08000208263004160041318000b0000110590028003920000140684b00400080193822000000c4cf200000064e08800002a08146024015040a301201253052000a004902882c00824b184160041258200b00000746e0000b07a02c81400c963008002864a58c40014000205100000001028000002a08142024015040a101201252452000a004902802c0049491480028001003200001253052000a0003e0480000495d1b8002ac1e80b20500001780e002800392000014083053c80018519001c006c00234f20006000082c80000033f07bfe00419700600000000c5100000028628024044954104000820ca018009800558115780902a81004404a0000548258012000c03241096c5e05809405e5400d54a01b1790222212008205000096c5e32810005a408280
  | 1 => 0x494c1480028000515200001253052000a0003e0c800002a2d0081240391680429200006c110000092882c80050001b044000034220b200040006c110000000082c80000817124000073f3f900066c90970113080b02b82810402181c045824f7f3f900066c86070116092000362f00000215a014724041808120060909701130805e134284648503e7140120011ec800005540f9c5004800b04e283049083100240012019201c002c000605100000064a08800b400b60079600105b8018710000dc0000000016c008000502ee040260041b980011000006c1100000002c2800000020f0043240100d02209660023c8203000041e008648002f00002a00388a0010111187781c000eb646000414804966184002800138a200018014c110000003ce2880000001b044000040099e400000006c110000000242f0000003e5280820001f294041000c894f18090054222cc048083253c400185188800006c00040510000000202c8000
  | 2 => 0x422c110682aa1160883415508b0441a0aa8458208d055083423f40a024118000b301202b85100024065c00ffc00002d04400003438020001c009b4000000092da2800260002c04400007d9c022003c000b0010000000582800000002b044000000158200000000ac0100000005600000038039200580000150200000000e08016000015420a2c000029044000000148200000000a40100000005200000000028044000000140200000000a001000000068408100083d92ac8200418a9fa004c0009c5100000004e28000006852178000b41fa1000800000485e0000d27d00001c005827141824ad1f38a000540069c500028a04ca7882c0442f10083601817880419000006c1100000929e2800056e87f184000b001f8c200000012c0100280039600001400337004005901880b2002c00cdc010016006082c800b620b02460243191800203201252452000a0000e548000049491480028001081200000006c1100000000c7c8000
  | 3 => 0x61603bfe0064a18040015a00d8500030d40700088520003e0440000001f0200000000f80100000007c0000000003d0440000001e8200000000f40100000007a0000000003c04400007d9d062003c000f0010000000782800000003b0440000001d820000320980013080585f078874039e710468e01217c81c1700879901f0d809d3f2070007c8260004c2006f39024834d4060c010000002f2280000402ff078260101f28224101619e41500000002609000008338080001041ac0801100000dc5100000006e2800000836209422004199005ff00080d85180900006c280000000350440000001a8200000000d40100000006a00000000b07200100201fa02241013cba80ec29ed6ce8287fd8098210498248432b89fff0000dcc51004400066280000069ba0c05e3000fc80200001258c1c000a507e4008000402f1008320001388001301e0898403080f85e8058740233f20040a1050598020314888c8017f9000060280000
  | 4 => 0x8000e0440004000702000020824cfd1889041247e8c44820960403e5c104b0201f2f4889cfd1e8b0044c7e800580081104000401069220322002341500459011a20801b8000c044000000a610008020003001000100c984800d38000e0440004000702000021c868fd208b0e42e7e90458314e1300a2c18a709805160c5384c028b9629c260145800090440004000482000021c2c415007100012000000800370080004191b804812380ef80140810641000a048ca02c017e2465007098c10a0001c01000197062008000800070540046d043821c52368228ebe2910310e204a4880005044000400028200002000140100010000a000000b867c0000a9c0f3e8241d02a19f00002a70442002bfc68000f13000069043821c5232802c4c42890000e0a80088000f13000069043821c5220852c4c018b0000e0a8008832192a401441b20002034e00804110f8100130000000c02180440004010a02200620821000608d004800300c9
  | 5 => 0x800160000004000b00000020028c018c81000460e000080277044ae04013b8225702a08cc640005004ee0895c08065d0400a041b209a000ce00104d00005066026800348031d0402204018e821010200c740110810063a1800c0c00a31026606004f09901030028c409d81800460e00008581b3f7024e2c1382101271c0b011088b6b0367ee04958008208100401ec822410200064a900010a032080060ca00d00022cc004c000030a0c260001085a046a080012c001f3f400040014022000300088fd00030623408a04480277044360611fb0200356081d8010f97004ee0895c08005c3f0000400b087f010200174fc000100082000000806192a7fe058020026002200c5000002700ca808000182028005824c0c16822310a000a00100010305a0884428022801046040c16822210a060b41108850015a0a0008820953843e14104a9c3e10a0004401000100022000000800100440004000802000020c260300585061300782c2
  | 6 => 0x830b20426216d859018290a0c2c8109c850614a0e0a42d30b20004216d859018210a0c2c8108c850614a0e084280096244004501dc000890328f0c3f21ab9478c1f90d58583b056024d005b00a1302079f40102a700050208000830af3f50e1418579fa870a008a4101081004520a8840d00320000006c0190780002120c800000300c4a0e0000b023e1040004185f082130b28f083f21ab9478c1f90d580e7e044009e501b002c126002580500110e058100c45ca02a3f58216501b820810a1c0ac340891061547e8242830ae3f40a1650171fa050a0c2bcfd0285001500907c08000900400c4011f082250000930810416a05844002008027b000b604185f082110a009ec002d81305f44a8000802773842604013b8225702808cc64000500448090000800a30066204000b00000020028c059c81000460e0000800910744604004883a4502002441d4481001220ec44080020044000400100200002079300018817006c08e045
  | 7 => 0xa02600042604149c00241128098001098102ce0500013442592001002212c900080110b348c040108c90314b538003c2780006501f93c035400b1c8004010007a000000a02600042604149c00241128098001098102ce80c0013a82331920a04013b9c25700000e081160000032400200800380040004013d8000b02009ec00348102ce0570013800390440004101a88221481c070851655d0608087fc0000122005804001c0200003e0ee4608880240684082258003b000000401120242102009ec000581c077c00a04080215240003c017280a0502008f841118108c9030cb53da03401412cc030c820000a0098001058100d70088454c83fc2788206501e13c035720980013080802f602800080664009029c013d8000b02009ec00348100cc80100d38023e1054204011f0820002008f84150810047c2208408023e1046204011f0820002080a041609390688788440a024c0402606501f93c035680930100981b07f84f0240
  | 8 => 0x72106094012001c00208101c8418250048e068c128440000262a4000040449e8005000098a900001614a7880740494e240002824a712000141253899000a0929c4800050680d2a40000001d82400000003059000000076090000003fb048000001fd82400000003059000000076090000068670080008001d8240001cc1ec1200c0f63f60900600684b2a4000800059520001c012ca90004f0396548002080893d000a041651e8005000020590000000102c80000a099110030800a10220b01ecb009100c00100e00806b608550000103042a8000080c21e03000406000c088000000430141a07813b8000b012010c3503800038800404000342010220050078ca232000d080408800e0082f006102187042022010c382101100861c108089e04ee000340003400440a0300210220b03c09dc000e818070030a04062215009fe428052820f90180554000280b014a781e4070600007fe0041c3808810000d14500880004800300c9
  | 9 => 0x1f0440000000f82000000007c0100000003e0000000001e0440000000f0200000000780100000003c0000000001d0440000000e8200000000740100000003a000000620b300c7e4b50598063f2420ecc154080607660aa040080120080000480908401ac200480200001202409006b33224172024199120b901213ebbc5f00060003454800073111164012218840b20091c0944590e80804902c87404faef17c0018000d15200013eba80f000697034548000080ae04400a0405700200519254459000a092a22c8005002171540010150b8aa4109008b85000048545c281042022d50400ea278038220099682545100ceb412a2800670082c1840008042b0d60005c0fe0012080010ac30000170011164000399188b6c321c0fe0012080e64622820c844953254002a184a12ac3211254459000a810583080014fadb0fc0018404c07200513ebac3f0006000222c80000b0a93c003a059741e001d000040590000000202c8000
  | 10 => 0x703ff040820381ff8204100000480200000202421002b6495a2a4002841fe9e0050012568a9000a0005c2800008003700000ac001b8000054000b4a900010006e000000008571540008480908401ac000b8500000000582800004002c140000000160a00001000b050000097058280000781481640a2b80a40b20514000480200000202409002bc01760032a0000b31539503002285c00260034c5480027026d004160000b48439503002285c002606352108060820273f502242c121fac1241252059000a00076090000000281440000001315200000000000000000050288000001662a72a0240a1020030000698a90004a400a308144703ff040820381ff8204101fa1f0110002840787e80c5000230440000001182200000008c00000000046000000000220440000001102000000008801000000044000000000210440000001082000000008401000000042000000000200440000001002000000008001000000040000000
  | 11 => 0xf02770001607813b8000b00c05d831ca800206e1a802b0323f1460240191f8a301201ebfc5f00060007c548000080b53ec00a0185f15201d0000f45100000017c548014403fb0480000151e022032160fa8150000e07f000904004948164002800a80b3fd03608c4801104504764002005867b0140e98033d802074dc00e81d0002e107408800020330044000dc0108200000a85d0021c900e17402c0484f01c05403b801e08224503c09dc003480f878278c140301760c72a01985b12ac320ec2d89560907616c4ab0487017d1472a0180ba0379501ca8f4510190602e8086540300a707000980053838004cd0120590004a00902c80027023d1440013951e8a24108082c0100fb4b40722031c8882c30003a07c0fb8000d013c0cc00004c0406420a044f81f70001e000019020000068070050288000640000000801a2a40000550d152412000044590000054222c9048020380446a425d8b91c0801c79e4214c80c076000a040
  | 12 => 0x8200e36c82ac108b00a3123498c8e220ab0006e00000081a62054824c013102a812600988156093004c40a90498020f0440004010782200020083c1100070079a5480008290b144822400058a2000200f3011228159288300005803400400a0401a082205039c0185e00c50e00c2f00628a0273f502246c121fac126002285c0027001142e0013cc017040060781370021902e66a0003b81001240a800b20012008000101a9004110200014120001006900084408e83700400c7100b02a01920051c5101af5402c080064803eb0008204400404a000200fac0020810e00c2f00620494a050002c180f02001d200fa411808100004308000801d704800043422000000600db8010881e07962ac140f4959054003424ac81800180190420ff8030c82107fc0980210400004c1c1000810280c04032081c0c840740408201a1458244018c001ff0208b8c0018892400e783048800020000004100d0a2c123c09b8011c81004800300c9
  | 13 => 0x8332019006c4000000c004e0186c11000100c360a8000880b400000a400a5001950200f78510001004dc089d4586855190000de4aa8000016000740100010003a000000ca03c04a0246501e0250123280f0118191b05d02886408202628406af813b8007517802f00c0181d01780600c0f03f1004820408ed80a001f0193045ff8100036028000f81a8040013424b50220007e06a010004d0e0420084481b13f200412468cc004001b60b60510d81f41302801c28838300102042b22022004f280e01002ade03ee200009829090c48224188482a01900051c800401e04ee000000f009300400a700098040003a004c020001f05a6010014800920019604397d00b853e002480064811e0120000378c95d04c002c6403802004e0004c5100016602628007487011104014dc049000a30204d0880178170004408b8080252004005e0148801b1020024805528100004408b80832342460244191a1230123c09dc00058100068488000
  | 14 => 0x833201900ac40017820000200cf4050001f03dc008340806220040004031100a000116650840411e04dc0095c0c4641000329f81370020f02009b41501930405a008252f81ee0142a0401d68000903a21ac110b81000d84800c1e03ab1840604381780a312e00eb0000181e04ee000240e00a50000a042015000314e1c0b0911383340c2480fc9821290007224d0f0820810a082a410c387007d2548000a060b057fe04342d120001f400cc1800011870208444082a230c41246501806a81120c8d80108910e46c008e48800352940004011b002192160fc0000481000625480008303316001c7813b8000502080a011018b9407808c848800260c00004391183e1322000980000010046c00864881976004ea4c39189521322005d801ca81a40560801c48200f0409e47813b800050206040a96093004c4009d45800850040004800103c0002002841500010005400f6c16863c2004003c0071003801a18b0801000fd0b6400d20
  | 15 => 0x8032019000c419900c811620cc806407b114c3e087859833201901ac4100a064091600bf8000001301067e80018332019016c4001e8200003e07b8010d810075408024080365004220000aa10008030a8703104918e4381f8a488332019012c4001d8200002000ec01000100076000000800022005c0400490008d0200008801701000740a80008781f014037c000f80200021c0e452cc8500072290000880b900400a40048880000280fe0510001e04ee001d45833201900ec7c13b801010200ef81040810070800a0408835e0142204405b002004e0c0d8510071002ec286540f02770001602c1f8000090160fc0000480b07e0000240523f000000ac7c1702a01be0005c00002b0e068286642f0277000160441bc00a11020c0cc580071060662c0038802e50553204181b0a200e200b94150c810606c2880388203238882ac10191c44157c09dc00058104064711055858312a5824c391b00219220a8d8011d918546c008ec8
  | 16 => 0x216190f200010b0c8790000888643c8002cc6540013000161900000000b0c800000008864000002c980c0013180380400000c1d283e09000a4cc0e408800066070000003f42400002500713c03540e08ca800000042c321cc0c03cd2000c2f011f80309000051c000001c0074008000022d3243c218200313c114d439dc0e0026a1cee0700130796e000002a501993c0354025c401000ab079c4f024000154103020014ad02a191520b1c000c81d05a8408894002161907200010b0c8390000888641c8002c86548013580020040002c001002000160888649c8002c945d0013e82390011207011f802c903808fc014480b0006000000402fc006020001741a2810000bb8012080905f80008400208f2783ed0104793c1f680001c9e00000411e4f07da000020040000010b0c939000000810000002c9448001300080184000000400c2000000268000006000025480000023003012425c0002200012e000150040004800300c9
  | 17 => 0x216191f200010b0c8f90000888647c8002cd25d0013603e8002020001ca0228100079841108800003c0000000025d040160381cc02281016c9540ee0920647a0e84480015d0004200191c92031212052cfd80800428a7ee04502264017824b812882041001c0f01540a6001320880010b1780444228030d022190007984100f80030320800330197100001b83800122e121c851c0ec08a8858e070140458140000003810e8a30900000fc000000c4230070dc4002161917200010b0c8b90000888645c8002cd4540013000130840000033e83b0100080c82004b2d074208a0400025d040320040af02a000000974100c800e02a2f035400395001020218ea001011d28020114088dc5b20086c00067d0770202c001002000180e68018080065c008002b01e6f04016980f378200b4c079840105a60204e508013682dc03032022cca008002060b60f00c810067c0600006c0190040001c1d91e2810000040010001061544282a1
  | 18 => 0x216192f20000179220000059bc10002600cc20003d30316e0400628100d8021916019e0100029a0cf00888408001200000040009000000000858645c8002cd454001300216190720000bf80200000598c05002602cd84800138022d214441c011490a220c00fdc9e0480f40c008f859503df278000281ef93c000100f7c9e00000002e4f00000001f278000001f392081014007c9e0000a07ee4f204001a04004124078821002092019e011000220150284040020ab04f8218010b0c93900059489e002600cc00081530007004000c001f301a00000806c1120aa04202300e44401470006203033a001b900000940100000004a000000370323c42211d0591e2ff080c96c400052e04a20801400202c24406a8101612203540003c9e0000907da2282401001c041029898bc8a2411440c70110026240100802450833d07403990d9e83a094c0088864bc800b0244f704902010000062801f780403001a00895000040cd8006040
  | 19 => 0x103a00011602101a8990109008c41100045001a08800000e5007c009a817a8001d01280fc2f04b2a05ea001140000000180040001b08400000199800ca80006cc00404001e78015c2000f3c00a8102019e011208100cf00800050003a2780002101a1220314000e89e0000000744f00004b81619000025c0b0c800012e08864000002cf67a00130067d076020000a9802610180e88004080002a600884001e5d001d600800683c0000039f41d00e6062f00080c5002161937200010b0c9b9000088864dc8002cd60200130167b19000980b3d8c8004c0593018002602c925000134a0240540a4338590030109b0964013080d84b20098404b81619000025c0b0c8000160bf8e50e8000076320000000161900000000b0c800000008864000002c92500013c02052140813933702be14a808f88b03045073c008440321110fe6e20001882000000ccb80080a80059248c040003263c00010031802200500199811000200cfa060000
  | 20 => 0x832cd044125c1966822092e0cba0010597065201f83da832cd0440a5c1966822052e0cba00103970051e7e815a82aa800406d41554002036a0cba00101970651c7601da803ca07c000651e5800415600f480004810442e088155b32ca040429e6006020000e00b2810002700796208000802cc004009e5906143fd578022c600017040ca00006a832c7004015f00458c0002e0d9240020a780012500000c80090440095816388a000a08220110fb5741080e07c3a03c903006038175802004e80d441481810428e082045b820704400aec174002000ae081c11002b7651a6d80daef008040011d8163822000bbc0202000476040c160011bb2c7044015c194400200eb88b144bf0b3f8408050015fc20212800ac31800340052102c49003850346c088248c03c2004220729e08c1ff0388b140bf0b39460608e056c400101400042041824fb0bacf04100883687ca088240fc20400400ac3300820006368004410897004800300c9
  | 21 => 0xcf0200144e1c019082203024825010e0870403e0a9841b201f015220c175100200aac098840078100cc20281408261e057f60d9b4b82000aac80680008a500c940200008001c0440004000e020000200070010001000380000008001b0440004000d82000020006c010001000360000008032005400140190022000b08060458083540340a80d2800190440004000c82000020006401000100032000000b0321044d606100d000114a08c74650055840340004528707a07d0296832500221020885ca103ab05618004454800160440004018987f0d0200058010001006261fb44080354000060401aa00003020825c040f850412e027842822160c03ed7811490a220e0005c04000100128028022800953f44604004a9fa450200254fd44810012a7ec440e03e500c000701f2806000300f94b00001f40a454006a803d4044060401ea0220902e0f24000181d6786080441832cd0441a5c19668220d2e0cba0010797f452202785a
  | 22 => 0xca3c400042ac0337022002f28c0001c0ad8025e208000803c400042065017880811608ac004f0b5406dc0080c0803ac083fe0413340220356a09b8909f81004d60298408202d000125c01e2000050200bb40000010005a00a045ac66806a029410b682181160cba8012297065d400814ba0027054000501f48c08102860c01060939e05820874bb32d1044010c011497400560c2a8010043061540080218206d05442ac01f582481020081c01002b033e00a0009802f4044000400130440003a819825f0b3c40cc107859e03aa069020681d50348103880a81a80a5a70540d0000800082045c04041204000070819800f0b3a104810000182ea401403541012122114aa0e9c0240814e04e01044ba002308400040011820000000d10fd001700046000000800220440000196390008aec192801048100c94020002820610403e1c380f00009064825010e087c8494008014800a21001206804f0020d0300c8441078180642089840
  | 23 => 0xc8000004008c01df800090200fe4008081006fc0802408003e044000401df000090200dfce0048100cc04008808003d0440006501a0c10106000f40100010007a0000008003c0440004001e0200002000f0010001000780000008003b0440004001d8200002000ec01000100076000000c40aa004005c100d00200c700e0c01028000436000e40300bd200580581b88230101018c0001381000f2008000803b800bfe04211c02281228c5e417f8b500706000013ca07f04442ae831b80a0002c0fdc11088104cee0800d5a8363044005c0002900060320e801540816406c0080d2eaeb6000035750198800556000d40100010006a000000f03b5045020410190820b4b280d41040a5b05e82084407000700000065b5982201ab008d810168097066400100d83b30141205b19900a01d21c1f41080a5022e4080005d8332000000401dc0020502000c40100010c28600800580168043020481b4121010200db810fe810040c000011
  | 24 => 0x231045160001ae82015000000010000000000009e500020f0140000010702203201c83890001000000009c500120e007fe40010682355200483410aa900241a00aa480020d0015a40000000265400c83015ff90002e20882c00220c007fe4001c082209000002c010000044160880080000a04400000d03803e1200082405ff800000000945001a0a0043e4000000024d400882c00ff90000000092505020a243fe0000000024540000000121a000000009050000000047e803104125ff000080410f1900840e094048000000046e82604102200881081c00808000000008c50000000045e80010208a0000618740092817010400a740000000044e8201030200000000000111a000000008850000000043e8000000021d4120214120180000000086504020610800000000002154008440011c90a04062280000034c0000a00010482a1f0120808400000000000000000000000000000000000000100804010000004800300c9
  | 25 => 0x280203f400000000022fd4000000117da00000008be506801f3b000000000022f540000001179a00000008bc5082028004069800b8822b100082040002ac0acfc4800130031b05406a00000020e5400026815018400000083850c8a3b20444000048023f1081c064150074006da0840400701b00401c00000020d5421c0e4811156000000834500701c057fea00000020cd401c040000052000000832500701800401400000020c54000264050184001300a80c20701800001380000020bd401c05811004c00000082e50000970540610004b80a03081c05810004a00000082c500701500401200000020ad40002580501840012a0a80c20701500001080000020a54000250150184000000828500701300401a0014982213501c05005006600c260804d4002d300022a001290220f50008481006a800324008254001110400aa000a88020752041d4801128001200880000065004000a000e88220b500dcf8310048001340280c2
  | 26 => 0x221d047fa4001a58211100000bc0100000025c0080000002e044000020969260310009b8109e800025c008000303ae0010201c1d78008100189b81000120c4dc08000900000046ce80000002365400000011b1a00000000800000000046be8000000235d400000011ada00005832000000000046ae80000002355400000011a9a0c0056218000000000469e8000000234d400000011a5a092454210008000000468e80000002345400000011a1a080452177fc0000000467e8000000233d4000000119da0400501f8000000000466e8000000233540000001199a0e004e7e8000000000465e8000000232d40000001195a0a004c7600001002536c000000000232540000001191a00000008c85031224188004000000231d4000000118da00000008c6505802310c000000000231540000001189a00000008c45038022090000000000230d40000001185a00000008c250780210fc000000000230540000001181a00000008c050
  | 27 => 0x3f0440000001f8200000000fc0100000007e0000006804f07c6e05c041002e70000bbc1fce800cc3a0700180003d0440000001e820000000df0000180842fa00c046203fb0400000001800600c000ef010ff80006f800ff40801372001400017d822000008af011f0b4302e20083c00003a044000401c100611000000010e9a0002f44800c5403b80420200001c8200000e02e41169800007220800000038044000004bd000390000078db00006406c0f0259000370440000381b8000350000dc0100009406802c049380b9045aa02501c80a214801cf40000002640a008148000350440001805b0180001019c810ff8030c6a00ffc0000340440000001a0200003c004c8103017010400b1c0b80820058a00781b8600b52e0208016180000640a800080008044000310198bc0964000c411000000062480000042f20000658419803fff00e000c81100000064008000003bb002220041da8408100009ec019fa0004f600cfc0
  | 28 => 0x4b73d004425c105f820ff1a0093c4000010459e0881568200b0001294380482200de000101c002f0400a0e0259b8146006020400a30021103c0d34044081006b800a0400073d00000201b9e800051200824100491000920800178022904072014177821ff0200d5c0010810010e0a884080702000004401c3003ff02e193410088100c9a08c44080087014520401c71fbff0200e140000057010400a1408203b0008294016480281020080c010029f071a008017b80820050e040164803010200b240120817010400a0c0f2006050829401c90caa10260d741080813a0a24f0001802c50010204004402a0007c0d30010017f068a02000b80089017fe04000b902060380e9805448106e280081488223e01472b41048021e1260ca041008b50417e083fc6807010000006500780a195a008d81010810410008785a87002041021401a081603020090cd000018410208f85a8203d0140ace1001822814a009000601927017a00ff40
  | 29 => 0x800193f40007010f822210200d18112881f06be0250408233e0447e4c11980203f2600178110581000bc0ae1c0c12e3110005c830301d2d03e0b3410c481b05aa0075c0842dc04bc25c01d2003ff0200e8010002f05440000248e809f0544e44010a822008bc8254150785241360087c98005e0571e00190e802052200178150181d066e082640c82d407126060165019e103219740c8881905c20624c0b8082004464781cf800a10200d28103081d00480e8000801580048204032a802090200d5c10208100cae0884408001604400040c3982200de001cc11006f000e6088009b201b0448294004d820008a005600100010c28c0080008038b007fe0541cb802350200a20002881000960e001780013014000400098200002008f400049100526009c40820130840ab5c0410022522e0008010001701040090c0b80820051205c041002890200c80d19f810cc0c0000188001004400041941022110a00040010001c00480e8000
  | 30 => 0x8022f0004204016d0210102000f00100010403430c049800bc185d605c041002e302008281104910017830bac08002b0700004011b0200922000f0010001000d20820408006904001bc10560027f0a021a410006fd005e7e8000102050041604004d0008f02000ac010001000560000008203804012cc003302b870200ed0011081000cc0a82c0872270404244119f0223f26000a401000100052000000d006904806bc043482a005e082b0157fa7c005e7e8000d2a2b04022440014038005e12094510f97001040080008033e0444e04059f022005200ec4111081010e60009c080096004004c004b0c00027e0ddc028081002ce0600008326d006024c39729e0814a080801120a50015a7e8000ca01d0443e5e500e8221f2e00d8410000b00742098005902f1040000401788030902000f00100010403c064049d839c044002c216e023e12e0c818018091a0caa00404080398057fe0501cd800090200e741100270804e0e9cd7
  | 31 => 0x8003f044000418c10000096000fc010001040740a8452f036a046220401410033102e020801488100000030002b80820053e0781dd8208102000f41500016016c080000e0337041e204108602a3922480001180a5d04ea7e8000f037a0020207c1bd8290102000ec010001040640aa052000450140005c0410029b02080fc0002b30077400ffc0820360160295c0410029302e0208014b81040720a82528373a2101544005b80a0002082e01102adc04ea7e8000c183200003bc2c1b82200de0002011000100470008248b80820053204101e020055a000d81500017010400a54080022044000410020023f260c98801809304654300fc9803b30041204191a0000922001d0910183000447e80008033e044000401da002030200bc4018981d07663000c0820390140695c0410028f02000c80100010005c4900008086a0045200190280205200c874010391040604881568033e05400040018801db5200cf81101a900068780000
  | _ => 0

/-- One word. -/
def decode (v : Nat) : Word :=
  { ca := v / 2 ^ 0 % 32, cb := v / 2 ^ 5 % 4, ck := v / 2 ^ 7 % 256,
    cl := v / 2 ^ 15 % 16, ch := v / 2 ^ 19 % 16, cn := v / 2 ^ 23 % 256,
    cd := v / 2 ^ 31 % 32, cv := v / 2 ^ 36 % 2, cc := v / 2 ^ 37 % 8,
    cs := v / 2 ^ 40 % 16, bp := v / 2 ^ 44 % 2 }

/-- `ros_2844`, the control storage of the repository (`model2844_ros.c`). -/
def ros (a : Nat) : Word := decode (rosRow (a / 64) / 2 ^ (45 * (a % 64)) % 2 ^ 45)

end Verif.Ctl2844
