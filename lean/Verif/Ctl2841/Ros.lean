import Verif.Ctl2841.Model

/-!
# Control storage of the 2841

Written by `tools/gen_ros41.py` from `/repo/src/model2841/ros.txt`; do not edit.
Each row holds 64 words of 45 bits, the fields `struct ROS_2841` uses as
`/repo/src/model2841/cros2841.c` reads them.  Addresses the listing leaves out are zero, as
`ros_2841` is.
-/

namespace Verif.Ctl2841
open Verif.Ctl2844 (Word)

/-- 64 words of control storage, the first in the low bits. -/
def rosRow (r : Nat) : Nat :=
  match r with
  | 0 => 0x16190000001200027d4400900013da200480009e510000e0440000000702000000003801000000004028000802d9000005400a58000010000340100000001a0000000000f10c000001200026544009000131a2004800098510000b044000001958020302001ac000007003540880058028d0440048000a82a0000e00540500000042202ffc07800c088000001200024d44009000125a200480009251680090fc000001200024544009000121a200480009051580083f4000001200023d4400900011da200480008e51400073b0000001200023544009000119a200480008c51000050440000000282000000888015ff900000a00000000004044000141200202544000100100016014602800828022000000001200201d440004c020000000080000c0002400402e88012002015440080412ff80004c4000451012110440041c1310000d4400004010000024800300091000636c000181050020000c080011ff80005ca400a80
  | 1 => 0x256045fe88012b022fd4400958117da2e004c01800000256045ee88012b022f544009581179a2c003e21000000256045de88012b022ed44009581175a2a003c17000000256045ce88012b022e544009581171a29003a1f80000001b0440000000000200020032c010018001360080228024a0440040000d020000000068010000004140078c8000190440000390912bff00000640100000e01408002b002560458e88012b022c544009581161a2700387e8000002560457e88012b022bd4400958115da2500307600000821400400000120002b544009000159a20048000ac510032a00403600125820ad4400810400180000480f80000001404400000120020a5446005cdb0000004260f80c00000207c000001200209d4400900104da2004800826510024a0012e88012500095440c8a00000100049400245106210017fe0000088200000fc86410ff90004c20822510222400400400110001ff000088490ff808048400a051
  | 2 => 0x2f044000000178200000000bc0100000005e0000000002e044000000170200000000b80100000005c0000000002d044000000168200000000b40100000005a0000000002c044000000160200000000b001000000058000000072100540040001582000000026c0101810021a080001801e50040030001502000000006c900000004c60ac7c000029044000000148200000000a40100000005200000000028044000000140200000000a00100000000a0080c8002560467e88012b0233d4400958119da20000008000000026044000000130200000009581199a20004e320000000250440000001282000020086811000e0004a00000000a143c3fe000515001ff000088005ff800004800000000200040008801200211d4400900108da20844220802800022044000000110200000000880100000a41c007fc00000325400000d0d001e120009001085a2004a208c2510002b044064001250010544e002c1000000048a00c051
  | 3 => 0x983f0842a10005f822008a00ce89100170016c108007880fe084000c007f8380032401d010000e035e200003e0023e07012419c1e8220000ce0f41500410017c000001000bd1840000005e8c20002002e800001e04278548e44781f90441e03c0fc8220f0124ee4801300f03f2088340000ba0041a10381e9232320160d40c0a84230741000232d9942101043813c8220500287dc053fbc0017e408a80220300140a2001fa82a0000c80d041209a006f830404037037040013b501c0228110082dc133f8d006600800012a03900406703d78820002d4c910810252015e200800b000380340004007c01a000418bc801000b005e400000570279054820440fa0400018a89e440f0930037078000200033044000000198200000000cc010000001f830000000032044000000190200000085e0000f85002f0000002001bf000420400f88220018005c4108080601ec484040021f704c3e49b81802201f800eec454080a077622a040
  | 4 => 0x4838b040060181c78e281012022c100680021a40880030000e044000000070200000000380100000001c0000000700a054623890089e0c12000f5c118080431aa0f3dc00000c044000000060200000000300100000001800000070213004060000199002601c0918112b800065a428a80021ca0143e4bc0e30220d01e0718110d800e0120807c7003890004200100580a033800e4c700480f038c08854028348000220190040020974a0d2441808000090480dc1903231300011cc428203f00e6214107e800318e0818402d994210104010ea024311010018103586001900886c3b00a0074000875820020000060d0fd609200588488000c00c504800100c6380e7900043140e00060318e081c4000003140000264a382200140c20c5000c0092c6260005098343f5824840539d34100260d0fd60920404c288ace000010440000000082000000000401000000002000000000000440000000002000018085011168002480030009
  | 5 => 0x2a3e282024280a101c1302001f811000cae2040740442a0dd0430e27018e8000015a0c7811ff80c06380687400039f3c00602816101c00000c2740000c0602b2008140082743f4c2015018882413400564010180602b20083400001b0440000000d82000000006c010000000360000000021a000c2015c6390008014c450110048000684002005aad80700659900c03881101c8080e61900073c7800c0000b3003fe00005980000000cbc8350c96005e41a8740021170007223812302200000826801c39e007ae54800000386005160201898e04100800540000008011a3800081839604d06010c6a83cf701c0918111c8000326088000221151c0fe201026822071000058130000062240a80641a1d60390211006983c0000c48f0800210240227830486008f2400603812302219000023401000000128308000029120448220402886a000160c4077000004028000064618cb044ea034c788219101a63c410c880d31e2087440
  | 6 => 0x3201c0568268004101d9900106e011004c004de0802c0003de00602015017824617c0826400c38804030010ace578bf02c00196c17096c125602740f0000b407e0f0ace098343f5824840541b3e100260d0fd609204056288ace0002b040000241941b20008000ac55000000056280000003df044000001ef822000200cf410001e001544c944280083140007a64be03200160020c50001e001522c800080083140007800148b200000820c50001e001062980006f8ad18c005b7c568c6002e0020cd1001e000506c800000026040000641939d20008000985500000004c280000000bc0083a00013280000001a1940000029064a08ffc0338020b80000413a1fa690200690110004104e87e9a40068630400009797e00400ac9c390f200464e1c8790023b00a0074000a6d7d804fd2c209d0fd0980640442800c52896f004001240b70221d00ba1e00c000e064422871c84c961104013264b08180098000d0810200104440f8002
  | 7 => 0x98343f5824800130aa000160cf440ff800407e0f0ace0322c0b88240001e82000360077c010004004fa0802c00003d044000018518980180000f40100006643a0fc1c89033d040007881950120000800082e0000407fc788000669e2038003ad91d82203201a6ec13148c8447a083fc804965270002830fd022001cc03e851ff8000074000000000390440001901d038031406354617a80a01f2280000623f90020242d91d0024321aa8e0120490de470090a486c3da0408200384d0235921b0f68102080807ca40824001a041c05247c19b8840009c00d402000003408380a48002750042600001a8200001b0f68102080807804082407c2f52443a03e17a9221d01d0bd4910e80f85ea488740098343f5824b6c1b1fa1b2c260d0fd6092042e62f0e48118d9047da008c6c823270026364100480131b208014000271014ca03c1c98031100c80c0a8019a004e00001402802f100000140178800000a00bc400000545de0800c8
  | 8 => 0xe0440000000702000000824cfd1888041247e8c44020960403e58104b0201f2ce889cfd1e8a0044c7e80055038d00082000ce28200004a03341180800331a480007021552403e0818b087f011400224fd2080001107eb0400000e0440000000702000001c868fd208a0e42e7e90450314e1300a2818a709805140c5384c028a6629c260145000d00402202c068024210000340110480001a008a040000d0070820000680248100a03401f2080b01a00888403202c017e2419007098c109003d0110a86670620080000000705400421043821c52108228ebe2900310e204a4800145244005801a2920000c00d788015060308a088005000cd00c000001c6800001800e1012ff800442002bfc60000f1300001d043821c520c802c4c42880000e0a80080000f1300001d043821c5200852c4c018a0000e0a80080000104400001860002030c0000401000000130000000002190040000004c803ff000821000608c02480030009
  | 9 => 0x160000000000b00000000028c018c80000460e000000277044ae00013b8225700408cc640000004ee0895c0000dd0400a0018609a0008e00104d000040660268002c0031d0402200018e821010000c740110800063a1800c0280a31026601404f0990100a028c409d80500460e00000581b3f702496c138210124bc0c411088aab0367ee04940008208100001ec822410000064a900000a0320800600000c0460228004c00003080c2600010847043208001d2801f3f4000000140220000a0088fd000200050088000002770443601501b0200334081d8010f96004ee0895c00005c3f000040106020001c00174fc000000082000000d020004c0016002a0240022e0c50020007d01a83000010202800582480c168223108000a00100000305a0884420022801046000c168222108060b41108850015a0a0008020953843e10104a9c3e108000440100000002200000001a040041240210802200a00c260300584061300782c2
  | 10 => 0x30b20426210185901829080c2c8109c840614a0e0a42030b20004210185901821080c2c8108c840614a0e084280096244004041d60228b00c8f0c3f219a6478c1f90cd1a0342041128405b00a1300063f4010286000502080003202f3f5821190179fac108008a4101080004520a884000032000000000190780000000c80000000004a0e00005023e1040000185f0821308c8f083f219a6478c1f90cd008fe0440019901b002c126002580500100e058100c453202a3f58211901f02081081c0ac340890061547e82423202e3f5821190171fa0508c80bcfd6084001500907c00023e1046200011f082250000930810416705844002000027b000b600185f0821108009ec002d80405f44a8000002773842600013b8225700208cc64018000448090000000a30066200000b00000000028c059c80000460e0000000910744600004883a4500002441d4480001220ec440683b118202004c7a9e00d0000530800400b01b0088000
  | 11 => 0x82600042600149c0ee411020980010980021fa50000300259200100001120242100b0b348c04000806e304b430003c2780001901f93c033400b1c800400807f84f0240082600042600149c0ee411020980010980021e80c0003102331900600013b9c25700840d44110ba00032400200000381dc0000013d8000b00009ec003480021fa500003201b5104060000bd8020500005c01f2d80d31e0078a40002200500a43c1dc8090101e0ee4608880f07723044400003b0000000007b805ff00009ec000580c077c00a040000360440000017280a0500008f84111800806e304b4342034014c2fbc1de824110000980010580131fa095b40303fc2788201901e13c0334c0980013080505c0428080000e40090218013d8000b00009ec003480001c80104c30023e1044200011f0820000008f84110800047c2208400583b056024800bd8024300080a0416092031e007b74003835104000000fc822000000cf41200000067a097fc0
  | 12 => 0xc82d7104007a4009152000020060420000000322c8000009550000028000b8a000354456459000b401727e80010000d044000000068200000000340100000001a000000003e5004000001f2802000008030a9159c005dc02800c0320c2a6024001638040032001b009000e005da00000c6708b3e4031001758220031bc32cf900c6005d600800c4800a1a4000241758c20030000245900000001228000000009164000034248b2000400024590000000122c800070262004160381310020b0012520fd000a0b064783049403ea042020381340000d00005181503804011a4280800788e004003a3c448b2001c00914110e800048a080740003e4044820000751e1ff0008018f10288001d4787fc060380084060001c00208300c0e00210180d00060080003a0203f50221d00f1fa052008080fd40880403c7e814800039204040250c18cb0110000e48101007e0022f002c020aa041f22001d480081000807010119002480030009
  | 13 => 0x381630040048391115213202058c010480702c60082400001e0140000390f83e132000088a90000704445486483801f0140003600f80a0000000086c0000d80043600004a01d0946a42904206a7910bc0705100c6e04d00002404015c0041200000380400010052450028a802922801455321b3cc8242800d9e600014006cf3000000036798000802ce044007800088d2000200b3811001e000322c800002a1a0418240390d036c120000680b0000e04d0001a40009561c4002b81340000b00d605c1100d6192b021000500016004002b384a08001880004c550000de1a8200063103d50400002400b0c0000040f545500000702a2a800000014044000000080520000000500100006b02014806b703c7040820381e3820410040f4019000000020148000503ce040000281e7020000200b5c41001e00024548000802ce044007b3847832018a00b3811001ede19e0c8063d82ce044007ac007806000200b3811001e000322c8000
  | 14 => 0x2f044000000178200000000bc0100000005e0000000002e044000000170200000000b80000000545a0840480002d044000000038a40000000b4010001000ea0800070318b0640300017a8220032007b019000c005ea08000c670ad3c00312517a023071dbc3b4f000c6063d62800604a2f40460e600075003ff000c7a85100c0002d600034000029044000000148200000000a4010000907020000c000039200400300140420001c05008104065b3284202080702304406100132800001400fa0010480004ca000005020a70540668105394a03341c0985800c40e04c28006200025183024b013282200140001c52001ae07504820c002204041fe4241f282a00001c0985800c40e0482800620016701416000132800050008390021c90004ca000140032220420240101a1c0413400088a900000406870104d000222a40001f9111521920ea87c001d905543e000ec83aa1f0c41241901086a8110ec88c0108907e446008e48
  | 15 => 0xbbfe0480100001c0c000034005801000a0007030000003887004000000410c20000000f80100000007c0000003203c04a0241901e0250120c80f0118190805f428064002038144062b80aa1000800aa8f43104905e47a1f8a480497b004003170fa002001c1a1f00c000e6e00c00044800268000000381340000b00c80f0119090041e6010e48041bb054013024bd8180098e02e850068070174280340702680001603001f8420000480cc156090d007e108000003dc0008202407f84bff0000f700020800e06e2f034c2a9370388221781b8bc0d300e2d8112080107ee07404080187008005c00fa8220018ac4144200566e06a00806602335002025801718aa9901025e8910004005c62a8640680b6117fe03005b08bff00000981800004028200014000032044000000ae0020900000c8010000002b8009c4000031044000000188200000000c40100000006200000000030044000000180200000000c001000000060000000
  | 16 => 0x216190f200010b0c8790000888643c80021c6540003000161900000000b0c8000000088640000021980c0003270f000102e901d283e09000a4cc0e408800066070000003f42400001900713c03340858ca8c08a0042c321cc0000122005400184582209080005c0e00000612e070242022d3243c278200313c110ce23dc0e0006711ee070003000090440001901993c033408054db209a8079c4f02407015410302000004020000008200110f8bc05a840810c002161907200010b0c8390000888641c80021865480034000200400020001002000100888649c80021945d000300005044000000028200001b0b64010e80070647880000000404400000002020000000010010000000080000000208f2782270104793c11380001c9e00000411e4f044e000020040000010b0c93900000081000000219448000340254000320249c111c020100950000c80564822f7049302cc00432004076000010180e9877418002480030009
  | 17 => 0x216191f200010b0c8f90000888647c80021d25d0003018e104422000070823910006384110880031c20888404000d2000400108882a31201c2600580900647a0e84480015d0004200191c9203120063e0053280000700280000701c0078218380e00011741c0f015c0860e07802f043018e104022000070821910006384102d80031c20812c0062072040800811d8000001c851c0ec08a5858e070140400190540000240c8220023c00601d0002e7030088000002161917200010b0c8b90000888645c80021d4540003000130840000007e83b0100080c82030be0e05c068c4501a510148248012880a812400944056092004a202904902030054ce5158ea001011cc8020114088dc5b20086c0000fd07702020001002000180e68778080065c008002b018ef04016180c778200b0c063840105860204e508003001470000003812a000000008074102790e04a8000140000100440000000802000000004001000000020000000
  | 18 => 0x216192f20000179220000043bc100006001c20003c30316e0400628100d8ee1915a0ef4054080d077a0620400000f2780000010b0c8390000f90000480021c602800300216190720000bf8020000043b4910006021d84800038022d214087c011490a043c00fdc9e0480f40400880c5383df2780001c1ef93c0000a0f7c9e00000002e4f00000001f278000001f39208100e007c9e0000707ee4f20403380b1140001984588a0508cc22c450184661162281c2020ab04f8278010b0c93900043489e0006001c0008143118e5009e2008c72804c10046394024580231ca0122c0281470006203007a00181000829001089c8403a20b1c8570323c42212d0591e2ff0808050115594001c80081c30202d2400668101692003340003c9e0000000584882431801c0410218d8bc8a2411660c70110006352f00886450033d07403184d9e83a090c0088864bc800b0244f7049013aa214540001f780403001a008950000441f008045d
  | 19 => 0x183800411601501a8990108a086c81150450040000000588c503c0019c17a8001d00c80fc2f30be705ea001140800000180040001b084000120ef41d01809007a0e8000018f8015c2000c7c00a8100063e0057080031f002ad400003a2780001501a1220314000e89e0000000744f00003381619000019c0b0c80000ce088640000021f67a0003000fd076020000a9802610180e88004180002a6008840018dd001d601901800a2b38023f41d00c6062f00080c5002161937200010b0c9b9000088864dc80021d6020003010fb1900018087d8c8000c0433018000602192500003320240540a4338590030109b0964013080d84b20098403381619000019c0b0c8000100bf8e50e8000076320000000161900000000b0c800000008864000002192500003282122140413907702be174208388013042073c3b84401834d078000001d8000410060d34150000001e2480443020280543e50101400a1f2800ec40020802406220e043
  | 20 => 0x303e4040000a81dd80a09000cf900008826404e30807c0000e044000000070200000000380100000001c0000007a0650104268803c80a8103c08a485021e0016400800a0000c0440003105c0c01f2c00db4108080000185000000014a3f4000010411fa11380d0ec1110a0068760880d0003c7002020301000214100c807801159c6403c00834ee02480040061d00682be108a80640000786e02002824f02038284066c017c002000d882e0600f96c81ca0a8840002092041000010490208020082481041e0078e548000682cb07032016cca108082080b0cf00c8000640400100000c4040820001fe01a030000fd8010481001c048000b030c40408219521280201c140310102080045a601784b01246200044ac10f8a3cb00ce080800400c4206070dc46823a04182030100021010180800106080800184082000837d0000a0041be9e00900080f8050f84106fa0000c03a0340043e0801fd0210102e08141c001602480000009
  | 21 => 0x70246040160001cd8004101a00048004000a1b44800034034f0020200018610a04294808c4108ba0403c0a8ace580e1043d201d0510201f2c000740100000003a00000028004070000001fb022090020f34000180005380800000026a054c20001cd0204101484183f9b880813648104200397005020201cb00005001c0f81208960c13e0000021a08d017827801980000f01480a41160ba3411a02f04f020813c0461010409e0450808204f04484041027844420039a00502029964022210c0015c914083005900880036b2d92041158817d82219000c3200104846404008a05d000150440000017b800000000cc81001806407402985d032f60000a58105b0019908ccbf0140196641780a554200013044000000098200000ce0d00000000011208001c643e200c000321f10060000a0f88b00000f01a454104000011044000000088200003a0bd440001ea658826484200010044000000080200000b03244102800403a08814d
  | 22 => 0x2f044000000178200000000bc0100000005e0000000022d068006b0169800000000db81400020f6dc008001e029102c00580116834003400d0c110880006860884400a0640441e7081460020000080981a00f8605c60002400002b044000000158200000000ac01000000056000000032ea0048a581975002052c060140560926e07a20874b2a01501686e800148200000000a401000000052000000000280440000410a04a002ca8064050078000500000000200f10016e801f21202101a05584000000019e4880005002c014000281f88c08100080c01a00f8005e00880000033204006000004002000020f30000180004c80247c0003ae017fe04017c82200280009c40408a0055808800040007200100001cf8e005000028c15b4802406a0880dd000220440001402d0428100a0c981a0000700b410a0402a03510406e8007082a090c00258410000a84ac2083c00203b1000a6810bb0238114080a010cc84002ee08e040
  | 23 => 0x1f7004260141990206100000f4801000540320a803c6833305400530193034000020df4000180000020a80000201b04412580059808000000b6c110000006e6024040003c13c0060001e09e00900002603f0f80001301ff840700072001001816580a1100a0000810100670604008000017f0472a01418a8200000a80200040ba0407e2002dd003ac057fe0191fc00041340cb800104960414000f842000080540001a01c820003cc0f48000480007ae200000801f60440048015900a0008006cc80100e000ec080000003e60090201c11d0220b20c80d84180ba04050085542100a10140a02b82002200ac280a00130beae08010802b003e40400a0000928000000090704500e0065b800802b600260680001c1930340000000dc10003a505340880023201d05401e1900480a00f1680c8a1019a00664501ac0422f4003c278001897400001c0a80150960e05400a84b0a0702844268001300a000140dd01280800e0640809cf
  | _ => 0

/-- One word. -/
def decode (v : Nat) : Word :=
  { ca := v / 2 ^ 0 % 32, cb := v / 2 ^ 5 % 4, ck := v / 2 ^ 7 % 256,
    cl := v / 2 ^ 15 % 16, ch := v / 2 ^ 19 % 16, cn := v / 2 ^ 23 % 256,
    cd := v / 2 ^ 31 % 32, cv := v / 2 ^ 36 % 2, cc := v / 2 ^ 37 % 8,
    cs := v / 2 ^ 40 % 16, bp := v / 2 ^ 44 % 2 }

/-- `ros_2841`, the control storage of the repository (`model2841_ros.c`). -/
def ros (a : Nat) : Word := decode (rosRow (a / 64) / 2 ^ (45 * (a % 64)) % 2 ^ 45)

end Verif.Ctl2841
