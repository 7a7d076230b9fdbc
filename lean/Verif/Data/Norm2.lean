import Verif.Model.Table
/-!
# Tables of `UnicodeData/Norm2NFCData.py`

Generated by tools/gen_data.py from the text of /repo. Rows hold 64 entries, least significant first.
-/
namespace Verif.Data

local notation "l" => Tree.leaf
local notation "n" => Tree.node

/-- UnicodeData/Norm2NFCData.py:32-143 `norm2_nfc_data_trieIndex`: 1746 entries of 16 bits. -/
def nfcTrieIndex : Table :=
 { size := 1746, bits := 16, depth := 5, rows := (n (n (n (n (n (l 0xb840b4a0b0a0acd0aa50a6a0a5e0a230a03022609cd098e097709370920022608e608a7087907290840080307e407a707680729070906cc068c0226065f063105f3022605de059f05700226053004f804c8048802260226044e040f03d203930353031302d4029402260254022601f201b2017a013a00fb00bb007b00400000)
 (l 0x11a21162112210e210a2106210220fe20fa20226022602260f620226022608080f2e0f020ece0e8e0e530e140dd40db40226022602260d7802260d4e022602260d30022602260cfb022602260226022602260226022602260226022602260226022602260ccf022602260226022602260cac0c6f0c390c1a02260bda02260b9f))
 (n (l 0x2260226022602260226022602260226144e0226140e02260cbd022602260226022602260226022613f102260226022602260226022602260226022602260226022602260226022602260226022602260226022602260226022602260226022602260226022613c613981362132212e312a612730226124312120226022611e2)
 (l 0x226022602260226022602260226022602260226022602260226022602260226022602260226022602260226022602260226022602260226022602260226022602260226022602260226022602260226022602260226022602260226022602260226022602260226022602260226022602260226022602261546150614c8148e)))
 (n (n (l 0x226022602260226022602260226022602260226022602260226022602260226022602260226022602260226022602260226022602260226022602260226022602260226022602260226022602260226022602260226022602260226022602260226022602260226022602260226022602260226022602260226022602260226)
 (l 0x226022602260226022602260226022602260226022602260226022602260226022602260226022602260226022602260226022602260226022602260226022602260226022602260226022602260226022602260226022602260226022602260226022602260226022602260226022602260226022602260226022602260226))
 (n (l 0x226022602260226022602260226022602260226022602260226022602260226022602260226022602260226022602260226022602260226022602260226022602260226022602260226022602260226022602260226022602260226022602260226022602260226022602260226022602260226022602260226022602260226)
 (l 0x226022602260226022602260226022602260226022602260226022602260226022602260226022602260226022602260226022602260226022602260226022602260226022602260226022602260226022602260226022602260226022602260226022602260226022602260226022602260226022602260226022602260226))))
 (n (n (n (l 0x226022602260226022602260226022602260226022602260226022602260226022602260226022602260226022602260226022602260226022602260226022602260226022602260226022602260226022602260226022602260226022602260226022602260226022602260226022602260226022602260226022602260226)
 (l 0x226022602260226022602260226022602260226022602260226022602260226022602260226022602260226022602260226022602260226022602260226022602260226022602260226022602260226022602260226022602260226022602260226022602260226022602260226022602260226022602260226022602260226))
 (n (l 0x17501748175c1754174c1760175817501748175c1754174c17601758175017481420022602260226170816c80226022616b8080c16a51677164502260226161d022602260226022615e315c315850226022602260226022602260226022602260226022602260226022602260226022602260226022602260226022602260226)
 (l 0x175817501748175c1754174c1760175817501748175c1754174c1760175817501748175c1754174c1760175817501748175c1754174c1760175817501748175c1754174c1760175817501748175c1754174c1760175817501748175c1754174c1760175817501748175c1754174c1760175817501748175c1754174c17601758)))
 (n (n (l 0x1760175817501748175c1754174c1760175817501748175c1754174c1760175817501748175c1754174c1760175817501748175c1754174c1760175817501748175c1754174c1760175817501748175c1754174c1760175817501748175c1754174c1760175817501748175c1754174c1760175817501748175c1754174c1760)
 (l 0x22602260226022602260226022602260226022602260226022602260226022602260226022602260226022602260226022602260226022602260226180f17d4022617941754174c1760175817501748175c1754174c1760175817501748175c1754174c1760175817501748175c1754174c1760175817501748175c1754174c))
 (n (l 0x226022602260226022602260226022602260226022602260226022602260226022602260226022602260226022602260226022602260226022602260226022602260226022602260226022602260226022602260226022602260226022602260226022602260226022602260226022602260226022602260226022602260226)
 (l 0x2260226022602260226022602261a9202260226022602260226022602260226022602261a721a321a0f19cf198f194f190f18cf188f184f022602260226022602260226022602260226022602260226022602260226022602260226022602260226022602260226022602260226022602260226022602260226022602260226)))))
 (n (n (n (n (l 0x40c02260226022602260226022602260226054f022602260226022602260226022602260226022602260226022602260bda022602260226022602260226022602260226022602260226022602260226022602260226022602260226022602260226022602260226022602260226022606b406b006b006b0069b067c06640655)
 (l 0x226022602260226022602260226022615d602260226022602260226022602260226022602260226022602261ae50226022602260226022602260226022602260226022602260226022602260226022602260dc602260226022602260226022602260226022602261ad5022602261ac502260226022602260226022602260226))
 (n (l 0x226022604121b7d08f61b6f1b6002260226022602261b5502260226022602260226022602260226022602261b4e0226022602261b43022602260226022607e00226022602261b331b230226041402260226022602261b181b0c1aff022609ba0226022607eb0226022602260226022602260226022602260226054f1aef0226)
 (l 0x1bc9022602260226022602260226022602260226022602260226022607e60226022602260226022602261bcc022602260226022602260226022609ba0226022602261bc21bb208d602260226022602260226022602260226022602260226022602261baa1b9b0226022602260226022607981b8b022602260226022602260226)))
 (n (n (l 0x22602260226022609ba022602260226022602260226022602260226022602260226022602260226022602260226022602260226022607e8022602260226022607ea07ed022602260226084d02260226022602260226022602260226022607e01bdc022602260226022602260226022602260226022602260226022602260226)
 (l 0x22602260226022602260226022602260226022602260226022602260226022602260226022602260226022602260226022602260efb0226022602261bec02260226022602260226022602260226022602260226022602260226022607ea02260226022602260bd4022602260226022602260226022602260226022602260226))
 (n (l 0x2260226022602260226022602260226022602260226022602260cea02260226022602261c621c521c4402261c381c2b1c1d1c0d02260226022602260226022602260226022602260226022602260226022602260226022602260226022602261bfe0226022602260226022602260226022602261bfc02260226022602260226)
 (l 0x2260226022602260226022602260226022602260226022602260226022604fc022602260226022602260226022602260226022602260226022602260efb02260226022602260226022602260226022602260226022602260226022602261c881c7a1c7202260226022602260226022602260226022602260226022602260226))))
 (n (n (n (l 0x226022602260226022602260226022602261ec41eb41ea41e941e841e741e641e541e441e341e241e141e041df41de41dd41dc41db41da41d941d841d741d641d541d441d341d241d141d041cf41ce41cd41cc41cb4022602260226022602260226022602260226022602261ca40226022602260226022602261c9802260226)
 (l 0xc400c400c400c4056600c4055200c400c400c400c400c400c400c400c400c400c400c400c400c400c400c400c400c400c400c400c400c40538051b04fc04df04c204a60489046d0457044800c400c400c404280408022602260226022602260226022602260226022602260226022602260226022602260226022602260226))
 (n (l 0xc400c400c400c400c400c400c400c400c400c400c400c400c400c400c400c405f500c400c405e205ce00c400c400c400c400c400c405ae059100c400c400c400c400c400c400c400c4058600c400c400c400c400c400c400c400c400c400c400c400c400c400c400c400c400c400c400c400c400c400c400c400c400c400c4)
 (l 0x635061500c400c400c400c400c400c400c400c400c400c400c400c400c400c400c400c4)))
 (n (n (l 0x0)
 (l 0x0))
 (n (l 0x0)
 (l 0x0)))))) }

/-- Rows 0..63 of `nfcTrieData`. -/
def nfcTrieData_rows0 : Tree :=
 (n (n (n (n (n (n (l 0x1000c00080004000100010001000100010001000100010001000100010001000100010001000100010001000100010001000100010001000100010001000100010001000100010001000100010001000100010001000100010001000100010001000100010001000100010001000100010001000100010001000100010001)
 (l 0x1000100010001000105d005a805a00584057c0530051004f404d4000104cc048c0468045c04440430042803f003d003b403b0036c03540340033402f400010001000100010001000102dc02b802b00298029002440228020c01ec000101e401a401800174015c01480144010800ec00d000cc00880070005c005000100001))
 (n (l 0xafa12960ae41290128a0001000100010001000100010001000100010001000100010001000100010001000100010001000100010001000105e800010001000100010001000100010001000100010001000100010001000100010001000100010001000100010001000100010001000100010001000100010001000100010001)
 (l 0x135d0c320c1c13561350134a000113440c06133e13381332060800010bfc0bea0bd4132c1326132000010bca131a1314130e13080bb4130212fc0baa06000ba00b9612f60b8012f012ea0001000112e40b6a12de12d812d205fc00010b600b4e0b3812cc12c612c000010b2e12ba12b412ae12a80b1812a2129c0b0e05f40b04)))
 (n (n (l 0x148f14881482000100010001147c14761471146b1464145e000114591453144d14470001000100011440143b1435142e14281422141c1416141000010001140a140413ff13f913f213ec13e613e013da13d413ce13c813c313bd13b613b013aa13a40c560c4800010001139e13981392138c13861380137a1374136e13681363)
 (l 0x100010001000100010001060c157e15781572156c15661560155a1554154e15481542153d15371530152a1524151e151815120cc60cbc0cb20ca800010001150c1506150114fb0c9e0c9414f514ef14e814e20c8a0c8014dc14d614d114cb14c414be0001000114b814b214ac14a60c720c6400010001000114a0149a1495))
 (n (l 0x1584000100010001000100010001000100010001000100010001000106100001000100010001000100010d1e0d0400010001000100010001000100010001000100010001000100010cea0cd000010001000100010001000100010001000100010001000100010001000100010001000100010001000100010001000100010001)
 (l 0x1708170216fc16f616f016ea16e416de16d816d216cc16c616c016ba16b516af16a916a3169a16901688168200010001167c16760001000100011671166b1665165d16530d420d38164a1644163e1638000100011633162d1624161a16101606000115fc15f215e815de15d415ca15c015b615ae15a815a2159c15961590158a))))
 (n (n (n (l 0x1000100010001000100010001000100010001000100010001000100010001000100010001000100010001000100010001000117b017aa17a217980d7e0d74178e1784177a17700d6a0d600d560d4c0001000100010001000100011768176200010001175c17561750174a1744173e17381732172c17261720171a1714170e)
 (l 0x1000100010001000100010001000100010001000100010001000100010001000100010001000100010001000100010001061400010001000100010001000100010001000100010001000100010001000100010001000100010001000100010001000100010001000100010001000100010001000100010001000100010001))
 (n (l 0xffb8ffb8ffb8fd94fd94fdb8fdb8fdb8fdb8ff94ff94ffb8ffb8ffb8ffb8ffb8fdb0ffd0ffb8ffb8ffb8ffb8ffd0fdccfdccffccfdccffccfdccffccffccfdccfdccfdccfdccfdccfdccfdccffccfdccfdccfdccfdccfdcc00010001000100010001000100010001000100010001000100010001000100010001000100010001)
 (l 0xffccffccffccffccffccffccffccffccffccffd2ffd4ffd4ffd2ffd4ffd4ffd2ffccffb8ffb8ffd0ffccffb8ffb8ffb8ffb8ffccffccffcc0001ffb8ffb8ffccffccffccffb8ffb8ffb8ffccfde03c483c42fdcc3c3c3c36ffccffccffccffb8ffb8ffb8ffb8fc02fe02fe02fe02fe02ffb8ffb8fdb8fdb8ffb8fdb8fdb8ffb8)))
 (n (n (l 0xd8817f717f106a000010001000106880001000100010684000106740001000100010001000106580001064400010634000100010001061817e917e117db000117d5000117cf17c917c329e917bd17b70001000100010001000129e500010001000100010001000100010001000129e10001000100010001ffccffccffccffcc)
 (l 0x1000100010001000100010001000100010001000100010001000100010001000100010001000100010001000100011825181f076c0001000100010dc0181918130dae0d9c07540001000100010734000100010001072c0001071c0001000100010001000106fc000106e4000106d400010001000106b4180b18030d9217fd))
 (n (l 0x107c800010001000107c400010001000107b4000100010001000107b000010001000107ac1855079c079807900784000107800001000107780001184f184918430001000100010001183d077400010001183700011831182b0001000100010001000100010001000100010001000100010001000100010001000100010001)
 (l 0x1000100010001000100010001000100010001000100010001000100011885187f187900010001000100011873082800010001186d00011867186100010001082400010820000100010001081c000100010001080c00010001000108080001000100010804185b07f407f007e807dc000107d80001000107d00001000107cc)))))
 (n (n (n (n (l 0x10001000100010001000100010001000100010001000100010001000100010001000100010001000100010001000100010001000100010001000100010001000100010001000100010001000100010001ffccffccffccffccffcc000100010001000100010001000100011891188b0830082c000100010001000100010001)
 (l 0x19391933192d19271921191b1915190f0840083c1909190318fd18f718f118eb0001000118e518df18d918d318cd18c70838083418c118bb0001000118b518af18a918a30001000100010001000100010001000100010001000100010001189d1897000100010001000100010001000100010001000100010001000100010001))
 (n (l 0xfe22fe20fe1efe1cfe1afe18fe16fe14ffccffc8ffbcffccffccffb8ffccffccffb8ffb8ffb8ffb8ffb8ffb8ffccffccffccffccffccffccffb8ffbcffccffccffccffb8ffccffccffccffccffb800010001000100010001000100010001000100010001000100010001000100010001195d1957000100011951194b1945193f)
 (l 0x100010001000100010001000100010001000100010001000100010001000100010001000100010001000100010001000100010001000100010001000100010001000100010001000100010001000100010001000100010001000100010001fe240001ffb8ffcc0001fe32fe300001fe2e0001fe2cfe2afe28fe26fe26fe24)))
 (n (n (l 0xfe3efe3cfe3afe38fe360854000108500001000100010001000100010001000100010001000100010001000100010001000100010001000100010001000100010844197b1975196f196819620001000100010001000100010001fe40fe3efe3cffccffccffccffccffccffccffccffcc00010001000100010001000100010001)
 (l 0x1000100010001000100010001000100010001000100010001198708581981000100010001000100010001000100010001000100010001000100010001fe460001000100010001000100010001000100010001000100010001000100010001ffb8ffccffccffb8ffccffccffccffccffccffb8fdb8fdccfdccfe44fe42fe40))
 (n (l 0x100010001000100010001000100010001000100010001000100010001fe48000100010001000100010001000100010001000100010001000100010001000100010001ffb8ffccffccffb80001ffccffcc00010001ffccffb8ffccffccffccffcc00010001ffccffccffccffccffccffccffcc08600001198d085c00010001)
 (l 0x10001000100010001000100010001000100010001000100010001000100010001000100010001000100010001ffccffccffb8ffccffb8ffccffb8ffccffb8ffccffccffb8ffccffb8ffb8ffccffb8ffb8ffb8ffccffccffb8ffccffccffb8ffcc000100010001000100010001000100010001000100010001000100010001))))
 (n (n (n (l 0x100010001000100010001000100010001000100010001000100010001ffb8000100010001000100010001000100010001ffccffb8ffccffccffccffccffccffccffcc000100010001000100010001000100010001000100010001000100010001000100010001000100010001000100010001000100010001000100010001)
 (l 0x10001000100010001ffb8ffb8ffb80001000100010001000100010001000100010001000100010001000100010001000100010001000100010001000100010001ffccffccffccffccffcc0001ffccffccffcc0001ffccffccffccffccffccffccffccffccffcc0001ffccffccffccffcc0001000100010001000100010001))
 (n (l 0xffccfe3afe38fe36ffb8ffb8ffb8ffccffccffccffb8ffccffccffb8ffccffccffb80001ffccffccffccffccffccffccffccffccffccffccffccffccffccffccffb80001000100010001000100010001000100010001000100010001000100010001000100010001000100010001000100010001000100010001000100010001)
 (l 0x86c000119990868000100010001000100010001199308640001000100010001000100010001000100010001000100010001000100010001000100010001000100010001000100010001000100010001000100010001000100010001000100010001000100010001ffccffccffccffccffccffb8ffb8ffccffccffb8ffccffcc)))
 (n (n (l 0x100010001000100010001000100010001000100010001000100010001000100010001000100010001000100012a162a102a0a2a0429fe29f829f229ec000100010001ffccffccffb8ffcc000100010001fe120001000100010001000100010001000100010001000100010001fc0e0001000100010001000100010001199f)
 (l 0xfc00000100010001000100010001000100010001fe1219ab19a500010001000108700001000100010001000100010001fc000001fe0e0001000100010001000100010001000100010001000100010001000100010001000100010001000100010001000100010001000100010001000100010001000100010001000100010001))
 (n (l 0x1000100010001000100010001000100010001000100010001000100010001000100010001000100010001000100010001ffcc0001000100010001000100010001000100010001000100010001000100010001000100010001000100010001000100010001000100010001000100012a2800012a222a1c0001000100010001)
 (l 0x2a462a402a3a00010001000100010001000100010001000100010001fe120001000100010001000100010001000100010001000100010001fe0e000100010001000100012a34000100012a2e00010001000100010001000100010001000100010001000100010001000100010001000100010001000100010001000100010001))))))
 (n (n (n (n (n (l 0xfe0e0001000100010001000100010001000100010001000100010001000100010001000100010001000100010001000100010001000100010001000100010001000100010001000100010001000100010001000100010001000100010001000100010001000100010001000100010001000100010001000100012a4c00010001)
 (l 0x10001000100010001000100010001000100010001000100010001000100010001000100010001000100010001000100010001000100010001000100010001000100010001000100010001000100010001000100010001000100010001000100010001fe120001000100010001000100010001000100010001000100010001))
 (n (l 0x100010001000119c30001088400010001000100010001000100010001000100010001000100010001000100010001000100010001000100010001000100010001000100010001000100010001000100012a582a520001000100010001fc00fc0000010001000100010001000100010001fe1219bd19b70001000119b10878)
 (l 0x10001fc00000100010001000100010001000100010001fe1219d519cf19c90001000108900888000100010001000100010001fc000001000100010001000100010001000100010001000100010001000100010001000100010001000100010001000100010001000100010001000100010001000100010001000100010001)))
 (n (n (l 0x100010001000100010001000100010001fcb6fea80001000100010001000100010001fe12000100010001000119db0001089400010001000100010001000100010001000100010001000100010001000100010001000100010001000100010001000100010001000100010001000100010001000100010001000100010001)
 (l 0x19ed19e7089c000100010001fc00000119e1089800010001fe0e000100010001000100010001000100010001000100010001000100010001000100010001000100010001000100010001000100010001000100010001000100010001000100010001000100010001000100010001000100010001000100010001000100010001))
 (n (l 0x10001000100010001000100010001000100010001000100010001000100010001000100010001000100010001000100010001000100010001000100010001000100010001000100010001000100010001000100010001000100010001000100010001fc00fc000001000100010001000100010001fe12000119f50dca0001)
 (l 0x100010001000100010001000100010001000100010001000100010001000100010001000100010001000100010001000100010001fc00000100010001000100010001000100010001fe121a091a0319fd0001000108b008a8000100010001000100010001fc000001fe12fe12000100010001000100010001000100010001))))
 (n (n (n (l 0x10001000100010001000100010001000100010001000100010001000100010001000100010001000100010001000100010001000100010001fc001a1f1a170dd400011a0f08b4000100010001000100010001000100010001fc000001000100010001fc120001000100010001000100010001000100010001000100010001)
 (l 0x1000100010001000100010001000100010001000100010001000100010001000100010001000100010001fed6fed6fed6fed600010001000100010001000100010001fe12fecefece000100010001000100010001000100010001000100010001000100010001000100010001000100010001000100010001000100010001))
 (n (l 0x100010001000100010001000100010001000100010001000100010001fef4fef4fef4fef400010001000100010001000100010001fe12feecfeec0001000100010001000100010001000100010001000100010001000100010001000100010001000100010001000100010001000100010001000100010001000100010001)
 (l 0x1000100010001000100010001000100010001000100010001000100010001000100010001000100010001000100010001ffb8ffb80001000100010001000100010001000100010001000100010001000100010001000100010001000100010001000100010001000100010001000100010001000100010001000100010001)))
 (n (n (l 0x3c58ff083c50ff04ff0200010001000100010001000100012a7d0001000100010001000100010001000100010001000100012a7700010001000100012a7100010001000100012a6b00010001000100012a650001000100010001000100010001000100012a5f000100010001000100010001ffb00001ffb80001ffb800010001)
 (l 0x1000100010001000100010001000100012aa700010001000100012aa100010001000100012a9b00010001000100012a950001000100010001000100010001000100012a8f00010001000100010001000100010001000100010001ffccffcc0001fe12ffccffcc3c60ff0400010001ff04ff04ff04ff0400012a8800012a82))
 (n (l 0x10001000100010001000100010001000100010001000100010001000100010001000100010001000100010001000100010001000100010001000100010001000100010001000100010001000100010001000100010001000100010001000100010001000100010001ffb80001000100010001000100012aad000100010001)
 (l 0x100010001000100010001000100010001000100010001000100010001000100010001000100010001000100010001ffb80001000100010001000100010001000100010001000100010001fe12fe120001fe0e00010001000100010001000100010001fc0000010001000100010001000100011a2508c00001000100010001)))))
 (n (n (n (n (l 0x1000100010001000100010001000100010001000100010001000100010001000100010001000200020002000200020002000200020002000200020002000200020002000200020002000200010001000100010001000100010001000100010001000100010001000100010001000100010001000100010001000100010001)
 (l 0x10001000100010001000100010001000100010001000100010001000100010001fe00fe00fe00fe00fe00fe00fe00fe00fe00fe00fe00fe00fe00fe00fe00fe00fe00fe00fe00fe00fe0000010001000100010001000100010001000100010001000100010001000100010001000100010001000100010001000100010001))
 (n (l 0x10001000100010001000100010001000100010001000100010001000100010001fe00fe00fe00fe00fe00fe00fe00fe00fe00fe00fe00fe00fe00fe00fe00fe00fe00fe00fe00fe00fe00fe00fe00fe0000010001000100010001000100010001000100010001000100010001000100010001000100010001000100010001)
 (l 0x10001000100010001000100010001000100010001000100010001000100010001ffccffccffcc00010001000100010001000100010001000100010001000100010001000100010001000100010001000100010001000100010001000100010001000100010001000100010001000100010001000100010001000100010001)))
 (n (n (l 0x1000100010001000100010001000100010001000100010001000100010001fe120001000100010001000100010001000100010001000100010001000100010001000100010001000100010001000100010001000100010001000100010001fe12000100010001000100010001000100010001000100010001000100010001)
 (l 0x10001000100010001000100010001ffc800010001000100010001000100010001000100010001000100010001000100010001000100010001000100010001000100010001000100010001000100010001000100010001000100010001000100010001ffcc0001000100010001000100010001000100010001fe1200010001))
 (n (l 0x100010001000100010001000100010001000100010001ffb8ffccffbc0001000100010001000100010001000100010001000100010001000100010001000100010001000100010001000100010001000100010001000100010001000100010001000100010001000100010001000100010001000100010001000100010001)
 (l 0x10001000100010001000100010001000100010001fe12000100010001000100010001000100010001000100010001000100010001000100010001000100010001000100010001000100010001000100010001000100010001000100010001000100010001ffb8ffcc00010001000100010001000100010001000100010001))))
 (n (n (n (l 0x10001000100010001000100010001000100010001000100010001000100010001000100010001000100010001000100010001000100010001000100010001000100010001000100010001000100010001000100010001ffb800010001ffccffccffccffccffccffccffccffcc000100010001000100010001000100010001)
 (l 0x10001000100010001000100010001000100010001000100010001000100010001000100010001000100010001000100010001000100010001000100010001000100010001000100010001000100010001000100010001ffb80001ffb8ffccffccffb8ffb8ffb8ffb8ffb8ffb8ffccffccffccffccffcc0001000100010001))
 (n (l 0x10001000100010001000100010001000100010001000100010001000100010001000100010001000100010001000100010001000100010001000100011a4908d8000100011a4308d41a3d08d01a3708cc1a3108c81a2b08c40001000100010001000100010001000100010001000100010001000100010001000100010001)
 (l 0xffccffccffccffccffccffb8ffcc00010001000100010001000100010001000100010001000100010001000100010001000100010001000100010001000100010001000100010001000100010001000100010001000100010001fe121a6708ec1a611a5b08e808e41a5508e01a4f08dc0001000100010001fc00fe0e00010001)))
 (n (n (l 0x100010001000100010001000100010001000100010001000100010001000100010001fe12fe12000100010001000100010001000100010001000100010001000100010001000100010001000100010001000100010001000100010001000100010001000100010001000100010001000100010001000100010001ffccffcc)
 (l 0xffb8ffb8ffccffccffb8ffb8ffb8ffb8ffb8fe020001ffccffccffcc0001000100010001000100010001000100010001000100010001000100010001fe12fe1200010001000100010001000100010001000100010001fe0e00010001000100010001000100010001000100010001000100010001000100010001000100010001))
 (n (l 0xffccffccffccffccffccffccffccffccffccffccffccffccffccff94ffb8ffacffd4ffccffccffb8ffccffccffccffccffccffccffccffb8ffccffcc000100010001000100010001ffccffcc000100010001ffcc000100010001000100010001ffb80001000100010001fe02fe02fe02fe02fe02fe02fe020001ffccffb8ffb8)
 (l 0x1b391b2f1b261b201b1a1b141b0c1b021af81aee1ae61ae01adb1ad51ace1ac81ac21abc1ab61ab01aa91a9f1a971a911a8b1a851a7e1a781a721a6cffb8ffccffb8ffd2ffcc0001ffb8ffc8ffc8ffd0ffccffccffccffccffccffccffccffccffccffccffccffccffccffccffccffccffccffccffccffccffccffccffccffcc)))))))

/-- Rows 64..127 of `nfcTrieData`. -/
def nfcTrieData_rows1 : Tree :=
 (n (n (n (n (n (n (l 0x1cd81cce0dfc0df21cc61cc01cbb1cb51caf1ca91ca01c961c8c1c821c781c6e1c641c5a1c521c4c1c461c401c3a1c341c2e1c281c231c1d1c161c101c0a1c041bfe1bf81bf21bec1be41bda0de80dde1bd21bcc1bc61bc01bba1bb41bac1ba21b9a1b941b8e1b881b831b7d1b761b701b6a1b641b5e1b581b521b4c1b471b41)
 (l 0x100011e6500011e5e1e581e521e4c1e471e411e3b1e351e2e1e281e221e1c1e171e111e0b1e051dff1df91df21dec1de61de01dda1dd41dce1dc81dc31dbd1db61db01da81d9e1d941d8a1d821d7c1d761d701d6a1d641d5e1d581d521d4c1d461d401d3a1d341d2c1d221d181d0e1d041cfa0e100e061cf21cec1ce61ce0))
 (n (l 0x20622058204e2044203a20302026201c201220081ffe1ff41fea1fe01fd81fd20e540e4a1fcc1fc61fc01fba1fb21fa81f9e1f941f8a1f801f761f6c1f621f581f501f4a1f441f3e0e400e361f361f2c1f221f181f0e1f041efa1ef01ee61edc1ed21ec81ebe1eb41eaa1ea01e961e8c1e821e781e701e6a0e280e1a00010001)
 (l 0x219b21912187217d0f880f7a0001000121732169215f21550f6c0f5e0f520f440f360f280f1a0f0c0ef40ede0ed20ec40eb60ea80e9a0e8c0e740e5e000100010001000100010001214c21462140213a2135212f21282122211a2110210620fc20f220e820de20d420ca20c020b820b220ac20a6209e2094208a20802076206c)))
 (n (n (l 0x22b3000122a90001113a0001229f2295228b22812277226d112811160001000122632259224f2245110810fa00010001223b22312227221d10ec10de2213220921ff21f521eb21e110cc10ba21d721cd21c321b921af21a510a81096108a107c106e106010521044102c1016100a0ffc0fee0fe00fd20fc40fac0f9600010001)
 (l 0x24832473246324532444243a242f241f240f23ff23ef23df23d023c623bb23ab239b238b237b236b235c23522347233723272317230722f722e822de000100013bce12603bc622d73bbe22d13bb622cb3bae12563ba622c53b9e124c1240123212241216120811fa11e211cc11c011b211a411961188117a1162114c22bd0001))
 (n (l 0x266300013bfa265d2657265126492641000100013bf026392631262b2625261f261926123be6260d3bde260725ff1274000125f525ec25e525dd000108f02ab2000125d63bd625d125cb25c525bd126a000125b325aa25a3259b2595258b257b256b255b254b253b252c25222517250724f724e724d724c724b824ae24a32493)
 (l 0x1000100010001000100010001000100010001000100010001000100010001000100010001000100010001000100010001000100010001fa09fa09000108fc2abb26f43c2626ef3c1e26e926e1127e000126d726ce26c7000100012ab73c1626bf26b93c0e26b326ad26a7269f26972691268b3c042683267b2675266f2669))))
 (n (n (n (l 0xffb8ffb8fe02fe02ffccffb8ffccfe02fe02000100010001ffcc0001000100010001ffccffccfe02fe02fe02ffccffccffccffccfe02fe02ffccffcc0001000100010001000100010001000100010001000100010001000100010001000100010001000100010001000100010001000100010001000100010001000100010001)
 (l 0x100010001000100010001000100010001000100010001000100010001000100013c2e2ac20001000100012abe00010001000100010001000100010001000100010001000100010001000100010001000100010001000100010001000100010001000100010001000100010001000100010001000100010001ffccffb8ffb8))
 (n (l 0x10001000100010001091c000109180001091427192713270d000100010001000100010001000100010001000100010001000100010001000100012707000100010001000100010001000100010001000100010001000100010001000100010001270126fb0001000100010001000109100001090c00010908000100010001)
 (l 0x1000100010001000100010001000100010001000100010001000100010001272b0928000127250924000100010001271f092000010001000100010001000100010001000100010001000100010001000100010001000100010001000100010001000100010001000100010001000100010001000100010001000100010001)))
 (n (n (l 0x10001000100010001000100010001000100010001000100010001000100010944000100010001274f094027490001093c274309380001273d0001000100010934000100010001000100010001000100010001000100010001000100010001000100010001000100010001273709302731092c000100010001000100010001)
 (l 0x1000100010001000100010001000100010001000109880984000100010001000100010001000127b527af0980097c27a927a309780974279d2797000100010970096c096809642791278b0960095c2785277f0958095427792773276d2767276100010001000100010001000100010950094c0001275b0948275500010001))
 (n (l 0x100010001000127e527df27d927d30001000100010001000100010001000100010001000100010001000100010001000100010001000100010001000100010001000100010001000100010001000109a809a409a0099c0001000127cd27c727c127bb099800010994099000010001000100010001098c0001000100010001)
 (l 0x1000100010001000100010001000100010001000100010001000100012acb2ac70001000100010001000100010001000100010001000100010001000100010001000100010001000100010001000100010001000100010001000100010001000100010001000100010001000100010001000127fd27f727f127eb00010001)))))
 (n (n (n (n (l 0x100010001000100010001000100010001000100010001000100010001000100010001000100010001000100010001000100010001000100010001000100010001000100010001000100010001000100010001000100010001000100010001000100012acf0001000100010001000100010001000100010001000100010001)
 (l 0xffccffccffccffccffccffccffccffccffccffccffccffccffccffccffccffccffccffcc00010001000100010001000100010001000100010001000100010001000100010001000100010001000100010001000100010001000100010001000100010001fe120001000100010001000100010001000100010001000100010001))
 (n (l 0x10001ffc0ffc0ffbcffd0ffc8ffb4000100010001000100010001000100010001000100010001000100010001000100010001000100010001000100010001000100010001000100010001000100010001000100010001000100010001000100010001ffccffccffccffccffccffccffccffccffccffccffccffccffccffcc)
 (l 0x287b287509fc286f286909f42863285d09ec00010001000100010001285709e8285109e4284b09e00001284509dc283f09d8283909d4283309d0282d09cc282709c8282109c4281b09c0281509bc280f09b8280909b4280309b0000100010001000109ac00010001000100010001000100010001000100010001000100010001)))
 (n (n (l 0xa3828c90a3428c30a3028bd0a2c28b70a2828b10a2428ab0a2028a50a1c00010001000100010a180001000100010001000100010001289f0a1400010001fc10fc1000010001000100012899000100010001000100010001000100010001000100010001000100010001000100010001000100012893288d0a0c288728810a04)
 (l 0x294d2947294100010001293b00010a8c0a880a840a80000100010001000100010001000100010001000100010001000100010001000100012935292f0a78292929230a70291d29170a682911290b0a60290528ff0a580001000100010001000128f90a5428f30a5028ed0a4c000128e70a4828e10a4428db0a4028d50a3c28cf))
 (n (l 0xffccffccffccffccffccffccffcc0001000100010001ffcc0001000100010001000100010001000100010001000100010001000100010001000100010001000100010001000100010001000100010001000100010001000100010001000100010001000100010001000100010001000100010001000129590a90000100012953)
 (l 0x10001000100010001000100010001000100010001000100010001000100010001000100010001000100010001000100010001000100010001ffccffcc000100010001000100010001000100010001000100010001000100010001000100010001000100010001000100010001000100010001000100010001ffccffccffcc))))
 (n (n (n (l 0x1000100010001000100010001000100010001000100010001000100010001000100010001000100010001000100010001000100010001fe1200010001000100010001000100010001000100010001000100010001ffccffcc0001000100010001000100010001000100010001000100010001000100010001000100010001)
 (l 0x100010001000100010001000100010001ffccffccffccffccffccffccffccffccffccffccffccffccffccffccffccffccffccffcc000100010001000100010001000100010001000100010001000100010001000100010001000100010001000100010001000100010001fe12000100010001000100010001000100010001))
 (n (l 0x1000100010001000100010001fe120001000100010001000100010001000100010001000100010001000100010001000100010001ffb8ffb8ffb80001000100010001000100010001000100010001000100010001000100010001000100010001000100010001000100010001000100010001000100010001000100010001)
 (l 0xffcc00010001ffb8ffccffcc0001ffcc00010001000100010001000100010001000100010001000100010001000100010001000100010001000100010001000100010001000100010001000100010001000100010001000100010001000100010001000100010001000100010001000100010001000100010001000100010001)))
 (n (n (l 0x1fe120001000100010001000100010001000100010001000100010001000100010001000100010001000100010001000100010001000100010001000100010001000100010001000100010001000100010001000100010001000100010001000100010001000100010001ffcc0001ffccffcc00010001000100010001ffcc)
 (l 0x1289128912891289128912891289128912891289128912891289128912891289128912891289128912891289128912891289128912890ae21289128912891289128912891289128912891289128912891289128912891289128912891289128912891289128912891289128912890ae200010001000100010001000100010001))
 (n (l 0x100010001000100010001000100011289128912891289128912891289128912891289128912891289128912891289128912891289128912891289128912891289128912890ae21289128912891289128912891289128912891289128912891289128912891289128912891289128912891289128912891289128912890ae2)
 (l 0x10001000100010001000100010001000100010001000100010001000100013c663c660001000100010001000100010001000100010001000100010001000100010001000100013c663c663c663c663c663c6600013c6600010001000100010001000100010001000100010001000100010001000100010001000100010001))))))
 (n (n (n (n (n (l 0x10001000100010001000100010001000100010001000100010001000100010001000100010001000100010001000100010001000100010001000100010001000100010001000100010001000100010001000100010001000100010001000100013c6600013c660001000100013c6600010001000100013c66000100010001)
 (l 0x2b912b8d2b892b852b812b7d2b792b752b712b6d2b692b652b612b5d2b592b552b512b4d2b492b452b412b3d2b392b352b312b2d2b292b252b212b1d2b192b152b112b0d2b092b052b012afd2af92af52af12af12aed2ae92ae52ae12add2ad92ad500013b970001000100010001000100010001000100010001000100010001))
 (n (l 0x2c8d2c892c852c812c7d2c792c752c712c6d2c692c652c612c5d2c592c552c512c4d2c492c452c412b212c3d2c392c352c312c2d2c292c252c212c1d2c192c152c112c0d2c092c052c012bfd2bf92bf52bf12bed2be92be52be12bdd2bd92bd52bd12bcd2bc92bc52bc12bbd2bb92bb52bb12bad2ba92ba52ba12b9d2b992b95)
 (l 0x2d852d812d7d2d792d752d712c492d6d2d692d652d612d5d2d592d552d512c892d4d2d492d452d412d3d2d392d352d312d2d2d292d252d212d1d2d192d152d112d0d2d092d052d012cfd2cf92cf52cf12ced2ce92ce52ce12cdd2cd92cd52cd12ccd2cc92cc52cc12cbd2cb92cb52cb12cad2ca92ca52ca12c9d2c992c952c91)))
 (n (n (l 0x2e7d2e792e752e712e6d2e692e652e612e5d2e592e552e512e4d2e492e452e412e3d2e392e352e312e2d2c512e292e252e212e1d2e192e152e112e0d2e092e052e012dfd2df92df52df12ded2de92de52de12ddd2dd92dd52dd12dcd2dc92dc52dc12b212dbd2db92db52db12dad2da92da52da12d9d2d992d952d912d8d2d89)
 (l 0x2f4d2f492f452f412f3d2f392f350001000100012f312f2d000100012f2900012f2500012f212f1d2f192f152f112f0d2f092f052f012efd000100012ef900012ef5000100012ef12eed2ee92ee52ee12edd2ed92ed52ed12ecd2ec92ec52ec12ebd2eb92eb52eb12ead2ea92ea52ea12e9d2e992e952e912e8d2e892e852e81))
 (n (l 0x303b0001000130373031302d3029302530212f2d301d301930153011300d3009300530012ffd2ffd2ff92ff52ff12fed2fe92d252fe52fe12fdd2fd92fd52fd12fcd2fc92fc52fc12fbd2fb92fb52fb12fad2fa92fa52fa12f9d2f992f952f912f8d2f892f852f812f7d2f792f752f712f6d2f692f652f612f5d2f592f552f51)
 (l 0x2d25310330ff2fe530fb30f730f330ef30eb30e72f0530e330df30db30d730d32f0130cf30cb30c72fad30c32fa930bf30bb2de92c8d30b730b330af2b752ef930ab30a730a3309f309b2f8d30972f893093308f308b30873083307f307b30773073306f306b30672ef53063305f305b2f6530573053304f304b30473043303f))))
 (n (n (n (l 0x100010001000100010001000100010001000100010001000100010001000100010001000100010001000100013183317f31793173316d316931653161315b3155314f2af1314b30293147302531432f193021313f313b31373133312f3019312b301131272c41300d31232f29311f3009311b31173113310f310b2ff53107)
 (l 0x324e32483242323c32363230322a32240001321e321800013212320c000132060001320031fa31f431ee31e8000131e231dc31d631d031ca31c431be31b831b231aa31a0319831920001000100010001000100010001000100010001318cfe343186000100010001000100010001000100010001000100010001000100010001))
 (n (l 0xffb8ffb8ffb8ffb8ffb8ffb8ffb8ffccffccffccffccffccffccffcc00010001000100010001000100010001000100010001000100010001000100010001000100010001000100010001000100010001000100010001000100010001000100010001000100010001000100010001000100010001000100010001000100013254)
 (l 0x1ffb8ffb8ffb8ffccffb8ffccffccffccffb8ffb800010001000100010001000100010001ffccffccffccffcc0001000100010001fe120001000100010001ffb8fe02ffcc00010001000100010001000100010001ffcc0001ffb80001000100010001000100010001000100010001000100010001000100010001ffccffcc)))
 (n (n (l 0x10001000100010001000100010001fe12fe120aac0aa600012987297d000100010001000100010001fc000001000100010001000100010001fc0efe120001000100010001000100010001000100012973000100010001000100010aa00001000100010001000129690a9a295f0a9400010001000100010001000100010001)
 (l 0x100010001fe12299b29910001000100010ab20001000100010001000100010001fc000001fe0efe0e00010001000100010001000100010001000100010001fe12fe0e000100010001000100010001000100010001fe0efe1200010001000100010001fe0e000100010001000100010001000100010001fe12000100010001))
 (n (l 0x1000129cd29c30ad60ad0000100010001000100010001000100010001000100010001fe0efe120001000129b9fc0029af29a5fc000abe00010001000100010001000100010001fc00000100010001000100010001000100010001fe0e000100010001fe12000100010001ffccffccffccffccffccffccffcc000100010001)
 (l 0x10001fe0cfe0c00010001000100010001000100010001000100010001fe02fe02fe02fe02fe020001fe12fe12000100010001000129d7000100010adc0001000100010001fc0000010001000100010001000100010001fe0efe12000100010001000100010001000100010001000100010001000100010001fe0efe120001)))))
 (n (n (n (n (l 0xffccffccffcc00010001ffb8ffb8ffb8ffb8ffb800010001000100010001000100010001ffb0ffb0ffb0ffc4000100010001fe02fe02fe02ffb0ffb032d832c032a8329032783264325a00010001000100010001000100010001000100010001000100010001fe02000100010001000100010001000100010001000100010001)
 (l 0xffccffccffccffccffccffcc0001ffccffccffccffccffccffccffcc000100010001000100010001000100010001000100010001000100010001334c3334331c330432f032e600010001000100010001000100010001000100010001ffccffccffccffcc0001000100010001000100010001000100010001ffb8ffb8ffccffcc))
 (n (l 0x33812f51337d3379337533712f4d336d33673363335f335b00010001000100010001fe0effccffccffccffccffccffcc000100010001000100010001000100010001ffb8ffb8ffb8ffb8ffb8ffb8ffb800010001000100010001ffccffccffccffccffcc0001ffccffcc0001ffccffccffccffccffcc00010001ffccffccffcc)
 (l 0x345d345934553451305f344d344d344934453441343d343934353431342d342934253421341d34173413340f340b340534013401340133fd33f933f52f6133f12c5933ed33e930572f5d2f59305333e533e133dd33d933d533d133cd33c933c3303f33bf33bb33b733b333ad33a933a533a1339b33973393338f2f5533893385)))
 (n (n (l 0x35593555354f354b35473543353f353b35373533352f352b35273523351d35193513350f350b2f7d3507350334ff34fb34f734f334ed34e92c4934e534e134db34d734d734d334cf34cb34c734c334bf34bb34b734b134ab34a734a3349f349b34973493348d348934853481347d347934753471346d2ebd3469346534612f69)
 (l 0x3641363b36372f913633362f362b36273623361f361b36173613360d36093605360135fd35f935f335ef35eb35e735e335df35db2b052f8d35d735d335cf35cb2f8935c735c3308f35c335bf35bb35b52f8135b135ad35a935a535a1359d359935953591358d35873581357d357935793575356f356f356b35652b713561355d))
 (n (l 0x30bf372f372b37273723371d3719371537112de92fa1370d37093705370136fd36f736f336ed36e736e136dd2c8d36d936d536d136cd36c736c336bf36bb36b536b136ad36a936a5316136a1369d369936932f9d368f368b36873683367d36793675367130af2b75366d366936653661365d3659365536512f99364d36493645)
 (l 0x3831382d316930ef382938293825381f38193813380d30eb3809380537ff37f937f337ef37e92c5537e337df37d937d537d137cd37c930d337c537c137bd37bd37b937b537b137ad37a737a1379d37993793378f30cb378b37853781377b37773771376d376937653761375d375930c337553751374b37453741373d37373733))))
 (n (n (n (l 0x357539393933392d39273923391f391b39173913390f3909390538ff38fb38f538ef2ff538eb38e738e138dd38d738d338cd38c738c338bf38bb38b738b338af38a938a538a1389d38993895388f388b38873883387d38793875386f386f3869386538612fdd385d38592f153853384d2fcd3847384330f72bbd383f38393835)
 (l 0x3a3d3a393a353a313a2d3a293a233a1f3a1b3a173a133a0f3a0b3a073a0339ff311339fb39f739f339ef39eb39e72ba939e339df39d939d339cf39cb39c539c139bb39b739b339af39ab39a5399f399939953991398d3989300139853981397d3979397539712c9d396b39673963395f395b39573953394f394b39473943393f))
 (n (l 0x3b47314b3b413b3d3b393b353b313b2d3b293b253b1f3b1b314731473b153b113b0b3b073b033aff3af93af33aef3aeb3ae73ae33add3ad93ad53ad13acb3ac73ac33abf3abb3ab73ab33aaf3aa93aa53aa13a9d3a973a91312f3a8d3a873a833a7f3a7b3a753a6f3a6b3a673a633a5f3a593a55312b31273a513a4d3a493a43)
 (l 0x100013b973b933b8f3b8b3b873b833b7f3b7b3b773b713b6b3b653b613b5b3b573b533b4f3b4b)))
 (n (n (l 0x0)
 (l 0x0))
 (n (l 0x0)
 (l 0x0)))))))

/-- UnicodeData/Norm2NFCData.py:145-640 `norm2_nfc_data_trieData`: 7892 entries of 16 bits. -/
def nfcTrieData : Table :=
 { size := 7892, bits := 16, depth := 7, rows := (n nfcTrieData_rows0 nfcTrieData_rows1) }

/-- Rows 0..63 of `nfcExtraData`. -/
def nfcExtraData_rows0 : Tree :=
 (n (n (n (n (n (n (l 0x3c20064e3c180646021c06183c14060e018f864e021806180214060e02100604020c06023c0c86623c0806463c04060e020886503c00064a3d410646040406220400061e039a0618018b06143d44061201890610044d060e0205060c020006080186060601850604018206020180060044de867044c0867044dc8670ffffffff)
 (l 0x3c480646043c06183c4c06103c44060e024806040244864e03cc06180240060e023c060c3c4006080238060403e806023c3c860e3c3486603c30065a023006500451064e3d710646040c06220408061e023406183d74061201960610022c060e0228060c022506083d7806060195060401920602019006003c1c86623c24065a))
 (n (l 0x3c8486463c80060e3c7c06023c7486623c78065a0276064e3c6d0646027a0618027206023c688662026c064e3c64064603d006183c600602026886043c588660025c06503d940646041406220410061e039e06183d900612019f06100260060e0258060c0254060802500606019c0604019a0602019806003c54865c3c50064e)
 (l 0x42406220420061e02b006183cb0060e02a806023cac860e3ca8060203d586503d99064603410636041c06220418061e03a2061802a006163d9c061201ad0610045d060e029c060c0299060801ab060601a9060401a6060201a406003c9086623c94065a028a064e3c8c0646028e06183c88060e01a206060286060203f00600)))
 (n (n (l 0x3dc80646035f0636042c06220428061e03a6061802e0061602dc06143dcc061201b9061002d8060c02d5060802d1060601b6060401b4060201b206003cdc86623ce0065a02c4064e0434064c3cd8064602c806183cd4060e02bc864e0430064c3cc5064602c106183cc0060e02b8060402b506023cbc866202ac064e3cb50646)
 (l 0x1c5060401c2060201c006003d2886623d24064602fa061802f6060e3d20060402f206023de886463dec061202f006103d1c060e046406083df0060602ec060401ba06023de406003d1886103d14060e3d1086463d0806103d0c060e02e806043d0406023d0006003cfc86463cf806063ce886603cec065a02e406503ce40648))
 (n (l 0x22706083d7a060601d5060401d2060201d006003c1e86623c26065a3c22064e3c1a0646021e06183c16060e01cf864e021a06180216060e02120604020e06023c0e86623c0a06463c06060e020a86503c02064a3d430646040606220402061e039c061801cb06143d46061201c90610044f060e0207060c0202060801c60606)
 (l 0x252060601dc060401da060201d806003d2c86623c56065c3c52064e3c4a0646043e06183c4e06103c46060e024a06040246864e03ce06180242060e023e060c3c420608023a060403ea06023c3e860e3c3686603c32065a023206500453064e3d730646040e0622040a061e023606183d76061201d60610022e060e022a060c))))
 (n (n (n (l 0x3c8e0646029006183c8a060e01e206060288060203f206003c8686463c82060e3c7e06023c7686623c7a065a0278064e3c6f0646027c0618027406023c6a8662026e064e3c66064603d206183c62060203e08618026a06043c5a8660025e06503d960646041606220412061e03a006183d92061201df0610025a060c02560608)
 (l 0x3cc2060e02ba060402b706023cbe866202ae064e3cb70646042606220422061e02b206183cb2060e02aa06023cae860e3caa060203d786503d9b064603430636041e0622041a061e03a4061802a206163d9e061201ed0610045f060e029e060c029b060801eb060601e9060401e6060201e406003c9286623c96065a028c064e))
 (n (l 0x3cfa06063cea86603cee065a02e606503ce606483dca064603610636042e0622042a061e03a8061802e2061602de06143dce061201f9061002da060c02d7060802d3060601f6060401f4060201f206003cde86623ce2065a02c6064e0436064c3cda064602ca06183d2e06103cd6060e02be864e0432064c3cc7064602c30618)
 (l 0x3fc860203c4860803f806023f828684070a06023fda06003d2a86623d26064602fc061802f8060e3d22060402f406023dea86463d3206143dee061201fe06103d1e060e046606083df2060602ee060401fa06023de606003d1a86103d16060e3d1286463d3006143d0a06103d0e060e02ea06043d0606023d0206003cfe8646)))
 (n (n (l 0x3e910626071806023ff006003e7386283e710626075406103fb0060c3fb20608071406023fb406003f98868a3e5306283e510626071206023f9406003e3386283e310626071006023f9006003f78868a3e1306283e1106263f70060c3f720608070c06023f74060003de861803dc86183d36860e03fe860203c6860803fa0602)
 (l 0x3eec06003f86868a3f8d06843e4306283e410626075d06023ee906003e2386283e210626075a06023ee406003f66868a3f6d06843e0306283e0106263f60060c3f620608075906023ee106003ff8868a3ed306283ed10626071e06023ff406003eb38628075606103fd0060c3fd20608071c06023fd406003fd886283e938628))
 (n (l 0x9a4861009a0060c080e861007a8861007a606023fe6868a3fed06843ec306283ec10626079d06023ef906003fcc86843ea306283ea10626079706103fc0060c3fc20608079a06023ef406003fca86283fc806263e8386283e810626079806023ef006003fac86843e6306283e610626079506103fa0060c3fa20608075e0602)
 (l 0x872060c09c6060808ba060009be861009ba86100984060c08a2861009ae060c08a0060008a6860209a6861009a2060c09d8861009f0861009e8861009e4861609e00610081c060c09dc060809cc86100818860209c886100832060c09c40608081a060009bc861009b886100982060c0802861009ac060c0800060008068602)))))
 (n (n (n (n (l 0x169016ac1696167c139893ae1396137c1268927812629278125292780d808ca80da68ca80d848ca80c4c8ca80c488ca80c4a8caa0c460ca80c440ca609d6861009d4861009b6861009b4861008ee861e08ec861e08ae861009da861009f2861009ea861009e6861609e2061008bc060c09de060809ce861008b8860209ca8610)
 (l 0x3fba06003f9e86843f9c06023f9a06003686b66a3682b66a3680b66a367ab66a3676b66a3624b66a361cb66a3618b66a3614b66a3610b66a360cb66a204ca05c1bbc9bbe1bb91b9e1bb41b941a969a7c1a989aae1a941a7c199099ac198e19aa19951984198099aa189098ac1796977c179897ae1794177c172897ae169896ae))
 (n (l 0x45108670450a86704508867045c2867045c08670450286704500867044f2867044f0867044ea867044e8867044e2867044e0867044c4867044da867044928670448e86704488867044828670444c867044488670441886704412867044088670439c8670439e8670439a8670435c867043368670433486703fbe86843fbc0602)
 (l 0x60ec613260e8e13460e6613260e2e13460e0613260d2e13260cee13260cae13260c4e13260c0e13260bce13260b8e13260b4e13260b0e13260ace13260a8e13260a4e13260a0e132609ce1326098e1326128e13245da867045d8867045d6867045d48670455e8670455c8670455a86704558867045c6867045c4867045128670)))
 (n (n (l 0x61bae13461b8613261b4e13461b2613261aee13461ac613261a8e13461a6613261a2e13461a061326192e132618ee132618ae1326184e1326180e132617ce1326178e1326174e1326170e132616ce1326168e1326164e1326160e132615ce1326158e13261e8e132613ce13260fae13460f8613260f4e13460f2613260eee134)
 (l 0x3080041e6023d5086123d5406063d4806023d4c060003020041e602000232704c02b48d2b766bc2b48b2b746bc2b48b297c2f42b48b29762e82348b29782c02348b2698d5c2b4892696cf823489225e49c2b489225c49c2b48921562e82b48921382e82b48921342e82b48961fce13261f4e13261f2e13261f0e13261eee132))
 (n (l 0x3b2861803aa060803ae060203b6060003080055e602045486080308004fe6023c9c8610045806083c9806020303004fe6023da886123dac06063da006023da406000302004fe6023c5c860203080049e6023d8486123d8806063d7c06023d80060003020045e6023c10860203270043ca0203f48602030a0041e60203bc8608)
 (l 0x6fe6023c9e8610045a06083c9a06020303006fe6023daa86123dae06063da206023da606000302006fe6023c5e860203080069e6023d8686123d8a06063d7e06023d82060003020065e6023c12860203270063ca0203f68602030a0061e60203be860803080061e6023d5286123d5606063d4a06023d4e060003020061e602))))
 (n (n (n (l 0x3ca686023ca206000304006fe6023ca486023ca006000304004fe6023c2e86023c2a060003040065e6023c2c86023c28060003040045e6023d6686123d6a06063d5e06023d62060003060061e6023d6486123d6806063d5c06023d60060003060041e60203b4861803ac060803b0060203b8060003080075e602045686080308)
 (l 0x3dbe06123dc206063db606023dba0600031b006fd8023dc486463dbc06123dc006063db406023db80600031b004fd8023cf6861003040075e6023cf4861003040055e6023cf2860203030075e6023cf0860203030055e6023cce860e030c0073e6023ccc860e030c0053e6023cca860e03010073e6023cc8860e03010053e602))
 (n (l 0xe602046086080307004fe6023c3a860c03270065ca023c38860c03270045ca0203c2860803070061e60203c0860803070041e60203da86080328006fca0203d886080328004fca023de286463dda06123dde06063dd206023dd60600031b0075d8023de086463dd806123ddc06063dd006023dd40600031b0055d8023dc68646)
 (l 0x72dc023cb8860803230052dc023c7286080323006cdc023c7086080323004cdc021bba9b940dcf0dd90002199699aa0cc20cc600023fe8868a030103c9e6023fce8684076006023fc40600030803c5e6023fae8684072006023fa40600030803b9e6023f88868a030103b7e6023f68868a030103b1e602046286080307006f)))
 (n (n (l 0x6023e070600031403b1e6023f00868a3e0d06843e0906023e050600031303b1e6023db286040323006fdc023db086040323004fdc023d8e860403230065dc023d8c860403230045dc023d6e860c3d5a060403230061dc023d6c860c3d58060403230041dc023cd2860e03230073dc023cd0860e03230053dc023cba86080323)
 (l 0x6023e17060003140391e6023f10868a3e1d06843e1906023e15060003130391e6023f0e868a0342031403b1e6431f013f0c868a0342031303b1e6431f003f0a868a0301031403b1e6431f013f08868a0301031303b1e6431f003f06868a0300031403b1e6431f013f04868a0300031303b1e6431f003f02868a3e0f06843e0b))
 (n (l 0x3130395e6023e2a86023e260600031403b5e6023e2886023e240600031303b5e6023f1e868a034203140391e6431f093f1c868a034203130391e6431f083f1a868a030103140391e6431f093f18868a030103130391e6431f083f16868a030003140391e6431f093f14868a030003130391e6431f083f12868a3e1f06843e1b)
 (l 0x3b7e6431f203f2a868a0301031403b7e6431f213f28868a0301031303b7e6431f203f26868a0300031403b7e6431f213f24868a0300031303b7e6431f203f22868a3e4f06843e4b06023e470600031403b7e6023f20868a3e4d06843e4906023e450600031303b7e6023e3a86023e36060003140395e6023e3886023e340600))))))
 (n (n (n (n (n (l 0x397e6431f283f3a868a030103140397e6431f293f38868a030103130397e6431f283f36868a030003140397e6431f293f34868a030003130397e6431f283f32868a3e5f06843e5b06023e57060003140397e6023f30868a3e5d06843e5906023e55060003130397e6023f2e868a0342031403b7e6431f213f2c868a03420313)
 (l 0x313039fe6023e8a86023e860600031403bfe6023e8886023e840600031303bfe6023e7e86843e7a06023e76060003140399e6023e7c86843e7806023e74060003130399e6023e6e86843e6a06023e660600031403b9e6023e6c86843e6806023e640600031303b9e6023f3e868a034203140397e6431f293f3c868a03420313))
 (n (l 0x31303c9e6431f603f42868a3ecf06843ecb06023ec70600031403c9e6023f40868a3ecd06843ec906023ec50600031303c9e6023ebe86843eba06023eb60600031403a5e6023eae86843eaa06023ea60600031403c5e6023eac86843ea806023ea40600031303c5e6023e9a86023e9606000314039fe6023e9886023e940600)
 (l 0x31303a9e6431f683f52868a3edf06843edb06023ed70600031403a9e6023f50868a3edd06843ed906023ed50600031303a9e6023f4e868a0342031403c9e6431f613f4c868a0342031303c9e6431f603f4a868a0301031403c9e6431f613f48868a0301031303c9e6431f603f46868a0300031403c9e6431f613f44868a0300)))
 (n (n (l 0xe6023f8e868a034203b7e6023f6e868a034203b1e6023fe4868a030003c9e6023f84868a030003b7e6023f64868a030003b1e6023f5e868a0342031403a9e6431f693f5c868a0342031303a9e6431f683f5a868a0301031403a9e6431f693f58868a0301031303a9e6431f683f56868a0300031403a9e6431f693f54868a0300)
 (l 0x65e60203030061e60203010061e60203000061e60203010059e60203020055e60203010055e60203000055e6020301004fe6020300004fe6020303004ee60203020049e60203010049e60203000049e60203080045e60203010045e60203000045e60203030041e60203010041e60203000041e60200033fee868a034203c9))
 (n (l 0x3020063e60203020043e60203010063e60203010043e60203280061ca0203280041ca0203040061e60203040041e60203080079e60203010079e60203020075e60203010075e60203000075e6020301006fe6020300006fe6020303006ee60203020069e60203010069e60203000069e60203080065e60203010065e6020300)
 (l 0xca0203270047ca0203070067e60203070047e60203060067e60203060047e60203020067e60203020047e602030c0065e602030c0045e60203280065ca0203280045ca0203070065e60203070045e60203060065e60203060045e602030c0064e602030c0044e602030c0063e602030c0043e60203070063e60203070043e602))))
 (n (n (n (l 0x6ce602030c004ce6020327006cca020327004cca020301006ce6020301004ce6020327006bca020327004bca020302006ae6020302004ae60203070049e60203280069ca0203280049ca0203060069e60203060049e60203040069e60203040049e60203030069e60203030049e60203020068e60203020048e60203270067)
 (l 0x3270054ca0203270073ca0203270053ca0203020073e60203020053e602030c0072e602030c0052e60203270072ca0203270052ca0203010072e60203010052e602030b006fe602030b004fe6020306006fe6020306004fe602030c006ee602030c004ee6020327006eca020327004eca020301006ee6020301004ee602030c))
 (n (l 0xe602030c005ae6020307007ae6020307005ae6020301007ae6020301005ae60203080059e60203020079e60203020059e60203020077e60203020057e60203280075ca0203280055ca02030b0075e602030b0055e602030a0075e602030a0055e60203060075e60203060055e602030c0074e602030c0054e60203270074ca02)
 (l 0x75e64300fc030003080055e64300dc030c03080075e64300fc030c03080055e64300dc030103080075e64300fc030103080055e64300dc030403080075e64300fc030403080055e64300dc030c0075e602030c0055e602030c006fe602030c004fe602030c0069e602030c0049e602030c0061e602030c0041e602030c007a)))
 (n (n (l 0x67e60203010047e602030c006ae602030c0292e602030c01b7e60203040328006fe64301eb03040328004fe64301ea030c006be602030c004be602030c0067e602030c0047e602030400e6e602030400c6e602030403070061e6430227030403070041e6430226030403080061e64300e4030403080041e64300c403000308)
 (l 0x69e60203110049e602030f0069e602030f0049e60203110065e60203110045e602030f0065e602030f0045e60203110061e60203110041e602030f0061e602030f0041e602030100f8e602030100d8e602030100e6e602030100c6e6020301030a0061e64300e50301030a0041e64300c50300006ee6020300004ee6020301))
 (n (l 0x308006fe64300f603040308004fe64300d6030c0068e602030c0048e60203260074dc0203260054dc0203260073dc0203260053dc0203110075e60203110055e602030f0075e602030f0055e60203110072e60203110052e602030f0072e602030f0052e6020311006fe6020311004fe602030f006fe602030f004fe6020311)
 (l 0x3b5e602030803a5e60203080399e6020301030803b9e64303ca030103a9e602030103a5e6020301039fe60203010399e60203010397e60203010395e60203010391e602030100a8e60203040079e60203040059e60203040307006fe643022f03040307004fe643022e03040303006fe64300f503040303004fe64300d50304)))))
 (n (n (n (n (l 0xe6020301043ae60203080456e60203010433e60203080435e60203000435e60203060438e60203060418e60203060423e60203000418e6020301041ae60203080406e60203010413e60203080415e60203000415e602030803d2e602030103d2e602030103c5e602030103bfe6020301030803c5e64303cb030103b9e6020301)
 (l 0x438e60203080418e60203040438e60203040418e60203080437e60203080417e60203080436e60203080416e602030804d9e602030804d8e60203060435e60203060415e60203080430e60203080410e60203060430e60203060410e60203060436e60203060416e602030f0475e602030f0474e60203060443e60203000438))
 (n (l 0x654064ae60206550627dc0206540648e60206540627e60206530627e6020308044be6020308042be60203080447e60203080427e602030b0443e602030b0423e60203080443e60203080423e60203040443e60203040423e6020308044de6020308042de602030804e9e602030804e8e6020308043ee6020308041ee6020308)
 (l 0xd4600020cd50cc20cc600430cca0cd60cc600020cd50cc600020cd50cbf00020c560c465b020bd70bc600020bbe0bc700020bbe0bc600020bd70b9200020b570b4700020b3e0b4700020b560b47000209d709c7000209be09c70002093c09330702093c09300702093c09280702065406d2e602065406c1e602065406d5e602)))
 (n (n (l 0xe60203070042e60203250061dc0203250041dc021b351b4200021b351b3f00021b351b3e00021b351b3c00021b351b3a00021b351b1100021b351b0d00021b351b0b00021b351b0900021b351b0700021b351b050002102e102500020ddf0dd900020dca0dcf0dd909430ddc0dca0dd909020d570d4600020d3e0d4700020d3e)
 (l 0x30003040065e6430113030003040045e6430112032d0064dc02032d0044dc0203270064ca0203270044ca0203310064dc0203310044dc0203230064dc0203230044dc0203070064e60203070044e602030103270063e64300e7030103270043e64300c703310062dc0203310042dc0203230062dc0203230042dc0203070062))
 (n (l 0x48ca0203080068e60203080048e60203230068dc0203230048dc0203070068e60203070048e60203040067e60203040047e60203070066e60203070046e602030603270065e6430229030603270045e643022803300065dc0203300045dc02032d0065dc02032d0045dc02030103040065e6430113030103040045e6430112)
 (l 0xdc02032d004cdc020331006cdc020331004cdc0203040323006ce6431e3703040323004ce6431e360331006bdc020331004bdc020323006bdc020323004bdc020301006be6020301004be602030103080069e64300ef030103080049e64300cf03300069dc0203300049dc02032e0068dc02032e0048dc0203270068ca020327))))
 (n (n (n (l 0x3080303006fe64300f503080303004fe64300d503010303006fe64300f503010303004fe64300d5032d006edc02032d004edc020331006edc020331004edc020323006edc020323004edc020307006ee6020307004ee6020323006ddc020323004ddc020307006de6020307004de6020301006de6020301004de602032d006c)
 (l 0x3010053e643015a03070073e60203070053e60203310072dc0203310052dc02030403230072e6431e5b030403230052e6431e5a03070072e60203070052e60203070070e60203070050e60203010070e60203010050e60203010304006fe643014d03010304004fe643014c03000304006fe643014d03000304004fe643014c))
 (n (l 0x55dc0203300075dc0203300055dc0203240075dc0203240055dc02032d0074dc02032d0054dc0203310074dc0203310054dc0203230074dc0203230054dc0203070074e60203070054e602030703230073e6431e63030703230053e6431e620307030c0073e64301610307030c0053e6430160030703010073e643015b0307)
 (l 0xdc0203230057dc0203070077e60203070057e60203080077e60203080057e60203010077e60203010057e60203000077e60203000057e60203230076dc0203230056dc0203030076e60203030056e602030803040075e643016b030803040055e643016a030103030075e6430169030103030055e6430168032d0075dc02032d)))
 (n (n (l 0x30103020041e64300c203090061e60203090041e6020307017fe602030a0079e602030a0077e60203080074e60203310068dc020331007adc020331005adc020323007adc020323005adc020302007ae6020302005ae60203070079e60203070059e60203080078e60203080058e60203070078e60203070058e60203230077)
 (l 0x3060061e6430103030003060041e6430102030103060061e6430103030103060041e6430102030203230061e6431ea1030203230041e6431ea0030303020061e64300e2030303020041e64300c2030903020061e64300e2030903020041e64300c2030003020061e64300e2030003020041e64300c2030103020061e64300e2))
 (n (l 0xca030003020065e64300ea030003020045e64300ca030103020065e64300ea030103020045e64300ca03030065e60203030045e60203090065e60203090045e602030603230061e6431ea1030603230041e6431ea0030303060061e6430103030303060041e6430102030903060061e6430103030903060041e64301020300)
 (l 0xe64300f403000302004fe64300d403010302006fe64300f403010302004fe64300d40309006fe6020309004fe60203230069dc0203230049dc0203090069e60203090049e602030203230065e6431eb9030203230045e6431eb8030303020065e64300ea030303020045e64300ca030903020065e64300ea030903020045e643)))))))

/-- Rows 64..127 of `nfcExtraData`. -/
def nfcExtraData_rows1 : Tree :=
 (n (n (n (n (n (n (l 0x1a00309031b006fe64301a10309031b004fe64301a00300031b006fe64301a10300031b004fe64301a00301031b006fe64301a10301031b004fe64301a003020323006fe6431ecd03020323004fe6431ecc03030302006fe64300f403030302004fe64300d403090302006fe64300f403090302004fe64300d403000302006f)
 (l 0x55e64301af0309031b0075e64301b00309031b0055e64301af0300031b0075e64301b00300031b0055e64301af0301031b0075e64301b00301031b0055e64301af03090075e60203090055e60203230075dc0203230055dc020323031b006fdc4301a10323031b004fdc4301a00303031b006fe64301a10303031b004fe643))
 (n (l 0x395e6431f180301031403b5e6431f110301031303b5e6431f100300031403b5e6431f110300031303b5e6431f1003030079e60203030059e60203090079e60203090059e60203230079dc0203230059dc0203000079e60203000059e6020323031b0075dc4301b00323031b0055dc4301af0303031b0075e64301b00303031b)
 (l 0xe6431f39030103130399e6431f38030003140399e6431f39030003130399e6431f380342031403b9e6431f310342031303b9e6431f300301031403b9e6431f310301031303b9e6431f300300031403b9e6431f310300031303b9e6431f30030103140395e6431f19030103130395e6431f18030003140395e6431f1903000313)))
 (n (n (l 0x1f500300031403c5e6431f510300031303c5e6431f5003010314039fe6431f4903010313039fe6431f4803000314039fe6431f4903000313039fe6431f480301031403bfe6431f410301031303bfe6431f400300031403bfe6431f410300031303bfe6431f40034203140399e6431f39034203130399e6431f38030103140399)
 (l 0x3450300031303b1f044000203451f020345031403b1f0431f010345031303b1f0431f00030003c5e602030003bfe602030003b9e602030003b5e6020342031403a5e6431f590301031403a5e6431f590300031403a5e6431f590342031403c5e6431f510342031303c5e6431f500301031403c5e6431f510301031303c5e643))
 (n (l 0x3140391f044000203451f0b0345030003130391f044000203451f0a034503140391f0431f09034503130391f0431f0803450342031403b1f044000203451f0703450342031303b1f044000203451f0603450301031403b1f044000203451f0503450301031303b1f044000203451f0403450300031403b1f044000203451f03)
 (l 0xf044000203451f2403450300031403b7f044000203451f2303450300031303b7f044000203451f220345031403b7f0431f210345031303b7f0431f200345034203140391f044000203451f0f0345034203130391f044000203451f0e0345030103140391f044000203451f0d0345030103130391f044000203451f0c03450300))))
 (n (n (n (l 0x3451f2d0345030103130397f044000203451f2c0345030003140397f044000203451f2b0345030003130397f044000203451f2a034503140397f0431f29034503130397f0431f2803450342031403b7f044000203451f2703450342031303b7f044000203451f2603450301031403b7f044000203451f2503450301031303b7)
 (l 0x3450301031403c9f044000203451f6503450301031303c9f044000203451f6403450300031403c9f044000203451f6303450300031303c9f044000203451f620345031403c9f0431f610345031303c9f0431f600345034203140397f044000203451f2f0345034203130397f044000203451f2e0345030103140397f0440002))
 (n (l 0x31303a9f044000203451f6e03450301031403a9f044000203451f6d03450301031303a9f044000203451f6c03450300031403a9f044000203451f6b03450300031303a9f044000203451f6a0345031403a9f0431f690345031303a9f0431f6803450342031403c9f044000203451f6703450342031303c9f044000203451f66)
 (l 0xf0431fc60345030103b7f04303ae034503b7f0020345030003b7f0431f74034200a8e60203450391f00203000391e60203040391e60203060391e6020345034203b1f0431fb60345030103b1f04303ac034503b1f0020345030003b1f0431f70030403b1e602030603b1e60203450342031403a9f044000203451f6f03450342)))
 (n (n (l 0x30403c5e602030603c5e60203421ffee60203011ffee60203001ffee60203000399e60203040399e60203060399e6020342030803b9e64303ca034203b9e6020300030803b9e64303ca030403b9e602030603b9e60203421fbfe60203011fbfe60203001fbfe60203450397f00203000397e60203000395e6020345034203b7)
 (l 0x33821900102034503a9f002030003a9e6020300039fe6020345034203c9f0431ff60345030103c9f04303ce034503c9f0020345030003c9f0431f7c030000a8e602031403a1e602030003a5e602030403a5e602030603a5e6020342030803c5e64303cb034203c5e602031403c1e602031303c1e6020300030803c5e64303cb))
 (n (l 0x1020338226501020338226401020338003e01020338003c01020338224d01020338226101020338003d01020338224801020338224501020338224301020338223c01020338222501020338222301020338220b0102033822080102033822030102033821d20102033821d40102033821d00102033821940102033821920102)
 (l 0x22b50102033822b40102033822b30102033822b201020338229201020338229101020338227d01020338227c0102033822ab0102033822a90102033822a80102033822a201020338228701020338228601020338228301020338228201020338227b01020338227a010203382277010203382276010203382273010203382272)))))
 (n (n (n (n (l 0x309a30750802309930750802309a30720802309930720802309a306f08023099306f08023099306808023099306608023099306408023099306108023099305f08023099305d08023099305b08023099305908023099305708023099305508023099305308023099305108023099304f08023099304d08023099304b08020338)
 (l 0x802309930c80802309930c60802309930c40802309930c10802309930bf0802309930bd0802309930bb0802309930b90802309930b70802309930b50802309930b30802309930b10802309930af0802309930ad0802309930ab08023099309d0802309930460802309a307b08023099307b0802309a30780802309930780802))
 (n (l 0xd8040004dcbad804dca5d8040704dcbad804dc9bd8040704dcbad804dc99d8040704309930fd0802309930f20802309930f10802309930f00802309930ef0802309930a60802309a30db0802309930db0802309a30d80802309930d80802309a30d50802309930d50802309a30d20802309930d20802309a30cf0802309930cf)
 (l 0x702093c09170702093c09160702093c0915070200b70001003b000102b90001dd30d806dd35d8060004ddafd805ddb9d8050004ddafd805ddb8d8050004dcbdd805dcb9d8050004dcb0d805dcb9d8050004dcbad805dcb9d8050004df57d804df47d8040004df3ed804df47d8040004dd27d804dd32d8040004dd27d804dd31)))
 (n (n (l 0xf4000020fb70f5b00020fb70f5600020fb70f5100020fb70f4c00020fb70f4200020b3c0b2207020b3c0b2107020a3c0a2b07020a3c0a1c07020a3c0a1707020a3c0a1607020a3c0a3807020a3c0a32070209bc09af070209bc09a2070209bc09a10702093c092f0702093c092b0702093c09220702093c09210702093c091c)
 (l 0x5587000191d10001595100019f9c000153e500014e3200016ed100018cc800018eca000166f400018c48000103382add01023009000130080001004b000103a9000100b400010060000103b900010fb50f9000020fb70fab00020fb70fa600020fb70fa100020fb70f9c00020fb70f9200020f800fb382020f800fb282020fb5))
 (n (l 0x72fc00016d6a0001671700015eca0001881f000181d8000162c900018964000185cd00016feb00015d5000019e1e0001862d0001721b00016b040001537500014e82000199f10001916a0001843d000173de000170d900016d1b00016a020001908f000188f8000187ba0001863f00017f8500017669000161f6000159480001)
 (l 0x5c62000158d8000196f700018cc2000178ca000172620001807e00017c6000015f04000158df00018ad600019e7f00019304000183c900017da00001797f0001788c00019dfa00019b6f0001973200018def0001865c0001860600018001000176e70001721000016ad3000164c4000152de000151b700014f86000190ce0001))))
 (n (n (n (l 0x585e000153c300017d220001657800016ccc00014e0d00015fa900014fbf000178fb0001531700017570000173870001601200015be700014e3900018afe000162cf00018b8000019675000183f100017dbe00017a1c000151cc000151dc0001808b000152d20001964b00017e3700017d2f00016f0f00016dda00016a130001)
 (l 0x6b77000166c60001529b00019ece00019e9700019a6a000195ad0001792a00016ffe000165c500015eec0001597300015442000152f5000191cf00018ad20001826f00017ce700016881000151c90001516900014eae00017565000163a0000182e5000162fe00016c8800018fb000016bba00018aaa00018449000177010001))
 (n (l 0x7469000173b20001601c00015dba000156f900014ee40001737500017c3e00016bae0001637b00015ff500015ec9000188c2000170c8000154bd000152a3000152170001934a00019023000184ee00018f260001806f00017df4000179ca000174890001714900016f230001649a000162000001619000015e7400018f620001)
 (l 0x7d100001786b000175590001740900016e9c00016d41000167f30001677b000152890001962e0001668800019f8d0001907c000184fc00017642000171ce0001659900015c3f00015bee000150da00014e86000160e1000196b8000191b4000179ae00014f8b0001981800019748000196f6000192340001804600017f9a0001)))
 (n (n (l 0x85fa00017498000171d00001541d00016eba0001533f000196e2000191cc000188e1000188cf00017f79000175e20001740600016ce5000168a80001674e0001661300015c650001540f0001522900019686000168170001614400015f8b00018f2a00016dea00015d190001502b000196780001622e0001516d0001985e0001)
 (l 0x51de000166740001585a000155c00001514000015ed30001898b0001964d0001884c00018f3b000166b400016d1e00015b8500017cd6000162d300015ea6000152070001523a0001833600014ec000018b5800017099000172c000017c9200017b2000017acb000181e800016dcb0001679700019e9f00019c57000196a30001))
 (n (l 0x5c6e00015c64000158a80001584000015668000156060001559d00015351000152e4000152c90001514d000150e700014fae000196b7000190de00019db400019928000198fc000198ef000190fd0001903800018af80001861200017fbd00017cbe000197560001798f000179650001795e0001793c000176ca0001732a0001)
 (l 0x8279000181ed0001800500017f7200017e4100017e0900017bc000017a8100017a400001798e0001798d0001795d000179560001795000017948000179490001793e00017891000174220001722b0001716e00016f2200016e1a00016d770001688500016691000165e20001654f000161f20001618e00016168000160940001))))))
 (n (n (n (n (n (l 0x15ed200015b2800015a620001595400015944000158b3000155e20001559900015555000152fa000152c7000151800001514500014f8000015168000151b500014e26000182180001deeed850000260750001983b000197ff000196e300018fb600018d0800018cd300018b3900018b010001899600018910000184570001)
 (l 0x17ab1000178cc000177400001774a000176f4000176db0001761f0001761d0001753b0001750600017471000172af00017235000177a70001701e00016ecb00016edb00016b79000167560001671b00016556000164520001641c000163c40001623400016160000161080001614e000160d800015fad00015f6900015ed9))
 (n (l 0x1ded3d85f0002dcd0d8570002de49d854000240390001401800013b9d0001dfd5d84c0002dc44d84a0002dc4ad84a00029b120001980b000197db0001967c00019276000191990001907200018f3800018b8a00018aed00018acb00018abf000189860001894100018779000183ef0001835200017f3e00017d5b00017c7b)
 (l 0x5bc05db150205bc05da150205bc05d9150205bc05d8150205bc05d6150205bc05d5150205bc05d4150205bc05d3150205bc05d2150205bc05d1150205bc05d0150205b805d0120205b705d0110205c205bc05e91943fb4905c105bc05e91843fb4905c205e9190205c105e9180205b705f2110205b405d90e029f8e00019f43)))
 (n (n (l 0xd834dd58d834d8460004dd6ed834dd5fd834dd65d834dd58d834d804dd65d834dd57d834d80405bf05e4170205bf05db170205bf05d1170205b905d5130205bc05ea150205bc05e9150205bc05e8150205bc05e7150205bc05e6150205bc05e4150205bc05e3150205bc05e1150205bc05e0150205bc05de150205bc05dc1502)
 (l 0xd834ddbbd834dd65d834ddbad834d804dd65d834ddb9d834d804dd72d834dd65d834dd58d834d8460004dd72d834dd5fd834dd71d834dd65d834dd58d834d8460004dd71d834dd5fd834dd70d834dd65d834dd58d834d8460004dd70d834dd5fd834dd6fd834dd65d834dd58d834d8460004dd6fd834dd5fd834dd6ed834dd65))
 (n (l 0x50990001507a0001500200014fbb00014f600001dd22d84000024e4100014e3800014e3d0001dd6fd834dd65d834ddbad834d8460004dd6fd834ddbcd834dd6fd834dd65d834ddb9d834d8460004dd6fd834ddbbd834dd6ed834dd65d834ddbad834d8460004dd6ed834ddbcd834dd6ed834dd65d834ddb9d834d8460004dd6e)
 (l 0x537d000153730001535a000153490001530600015305000135150001527700015272000152460001523b000134df00015203000151f50001dddfd864000251ac00014ecc000151a4000151970001dd4bd8410002518d00015167000134b90001dd1cd8410002517700015164000151540001de3ad8410002349e000150cf0001))))
 (n (n (n (l 0x578b0001580d000157f4000157ce000158ee00015674000156510001571700015716000155c2000155b3000155ab00015584000155630001555300015510000154f6000154a20001546800015448000154380001549e00015406000153f1000153eb0001df63d842000253df000153ca000170700001de2cd8420002537f0001)
 (l 0x15f5300015c0600015bff0001df18d84600025bf300015bd800015bc30001ddc8d84600025b3e00015b08000136fc000136ee00015a66000159d800015a2700015a1b000159ec0001deead8450002dea8d84500025962000159220001591a00015906000158f7000158f20001dce4d845000258ac00015831000158320001))
 (n (l 0x38c700015f22000182010001df31d84800025efe0001df92d86800025eb600015eb300015eb00001387c0001dd83d8480002386200015e6900015e3d00015e2800015dfd0001382f00015de200015de100015d7c00015d6b00015d6e0001dde6d84700025d430001dde4d84700025c8d00015cc000015c600001378100015c22)
 (l 0x62fc0001633d0001df0cd84a00026350000162d4000162b10001625d0001621b00016210000161de000161af000161a4000161b20001617a0001614c00016148000160c70001ded4d8490002391c0001393a0001608100015ff900015fd700015fcd00015f9a000138e300015f6b00015f620001dddad8580002deb8d84c0002)))
 (n (n (l 0xd84c000267530001675e00016721000143d9000180ad0001669c00016700000151950001519200013ae400013b0800013b1900016649000166f8000165e30001dc0ad84c0002656c00013a6c000164770001649d0001647e0001646900013a2e000163a9000163c5000164220001dff1d84a000263e400016383000163680001)
 (l 0x6cbf0001dcbcd84f00026c4e0001defad84e0002dd0bd8470002de8dd84e00026bbb00016b9f00016b7200013c4e00016b540001dca7d84e00026b2100013c1800016adb0001dea3d84d00026aa8000169ea000169a300016942000169140001681f0001688e0001dc6dd84d0002685200016785000167fa00013b490001dfc3))
 (n (l 0xde63d850000271450001dd25d841000270ad000170770001707d0001704a00013d960001701b0001703900016fc60001df8ed84f0002df5ed84f00026f6e00016df90001ded1d84f00026ec700013d3300016e6e00016e2f00016d340001dd1ed84f00026d8500016d7800016d6900016d3e00016d1600016c6700016ccd0001)
 (l 0x2dfb8d8530002dfa1d853000276100001dd9fd8480002dc92d8530002753e0001dc36d8530002752400013f1b000174ca000174850001745c0001744700013eb8000173a500013eac0001738b0001737a0001dc14d8520002df35d85100027295000172800001de08d85100027250000172280001dfabd8500002719c0001)))))
 (n (n (n (n (l 0xd8560002420200017aee0001dea7d8560002dd7cd85600027a4f00017a4a0001412f000179eb0001dec5d8550002de9ad8550002de26d855000240e30001784e0001dc1dd85500024096000140460001778b0001771f0001771e0001dd33d8540002dd19d8540002dcf2d8540002dcf3d8540002400800013ffc0001dc44d854)
 (l 0x280600001dd23d8590002dcdad85900027ffa00017f950001df3ed85800027f7a0001ded9d858000243590001de47d8580002de28d8580002433400017e4500017e0200017dc70001430100017d630001df86d85700027d0000017ce300017ce8000142a000017cd20001dc80d8570002422700017bc900017bc60001dfab))
 (n (l 0x8323000183ad000183630001831d0001df3cd85a000282e6000182bd000182b3000182b1000152b30001829d0001828b000182910001446b00018f9e000182040001df9cd84c0002df93d84c0002dfb5d8590002dfa7d85900025ab50001813e0001440b00018103000180b2000143d50001df5fd84c000280700001dda8d859)
 (l 0x186e20001870e00018688000186a90001866900018667000186500001456b0001dcd2d85c0002dfb1d85b000245610001455d0001df2cd85b000285640001dfcad85c00028516000184f3000184f10001452b0001dcd5d85b0002dd6bd85b0002dc36d85b000283dc000183cc000183ca00018353000183e7000183bd0001)))
 (n (n (l 0x18dcb0001dc04d8420002df2fd85f00028d7700018d1b00018cc100018cab0001dca8d85f00028c5500018aa0000146c7000146be0001dd66d85e0002dcaed85e000234bb000188fa00014635000188de000188d70001de67d85d0002886300018860000145f900018801000187e1000145d7000187860001876b00018728)
 (l 0x1de1ad8640002dd45d8640002972300015db2000196c3000149e60001dd77d863000295b7000149950001958b0001dffad86200029415000193f90001927c000192d8000192d7000192380001911b0001df2ed86100029111000190f1000190940001ddedd8610002ddd2d86100028ed40001dcded84200028df000018dbc))
 (n (l 0x14d5600019ebb0001de91d8680002de0ed8680002dd05d86800024cf80001dcced86800029d6700014ced00014cce00019cfd00019c400001df30d86600024bce000199fe000199c2000199a70001992900014b33000198e20001ddb6d865000298290001dc96d86500024ab20001dc0ad865000297e000014a7600014a6e)
 (l 0x3010399e642038a0301030803b9e6430001039003010397e642038903010395e642038803010391e6420386030103c9e64203ce030103c5e64203cd030103bfe64203cc030103b9e64203af030103b7e64203ae030103b5e64203ad030103b1e64203acde00d86900029f3b00019f1600019f0f00019f0500019efe00019ef9))))
 (n (n (n (l 0xf800f71828281000f740f71848281000f720f718282810003010308e682e6e60313e681e6e60301e681e6e60300e681e6e6030a0041e64200c5030103a9e642038f0301039fe642038c030100a8e6420385030103a5e642038e0301030803c5e643000103b0)
 (l 0x0))
 (n (l 0x0)
 (l 0x0)))
 (n (n (l 0x0)
 (l 0x0))
 (n (l 0x0)
 (l 0x0)))))))

/-- UnicodeData/Norm2NFCData.py:642-1127 `norm2_nfc_data_extraData`: 7732 entries of 16 bits. -/
def nfcExtraData : Table :=
 { size := 7732, bits := 16, depth := 7, rows := (n nfcExtraData_rows0 nfcExtraData_rows1) }

/-- UnicodeData/Norm2NFCData.py:27-30 `norm2_nfc_data_indexes`: 20 entries of 32 bits. -/
def nfcIndexes : Table :=
 { size := 20, bits := 32, depth := 0, rows := (l 0x30000003c6600003c3400003b9c000012880000fc0000003c66000029e000000ae200000300000000c000008914000089140000891400008914000089140000881400004bac00000050) }

/-- UnicodeData/Norm2NFCData.py:14 `norm2_nfc_data_highStart`. -/
def nfcHighStart : Nat := 0x2fc00

/-- UnicodeData/Norm2NFCData.py:15 `norm2_nfc_data_shifted12HighStart`. -/
def nfcShifted12HighStart : Nat := 0x30

/-- UnicodeData/Norm2NFCData.py:16 `norm2_nfc_data_type`. -/
def nfcType : Nat := 0x0

/-- UnicodeData/Norm2NFCData.py:17 `norm2_nfc_data_valueWidth`. -/
def nfcValueWidth : Nat := 0x0

/-- UnicodeData/Norm2NFCData.py:23 `norm2_nfc_data_index3NullOffset`. -/
def nfcIndex3NullOffset : Nat := 0xc4

/-- UnicodeData/Norm2NFCData.py:24 `norm2_nfc_data_dataNullOffset`. -/
def nfcDataNullOffset : Nat := 0x226

end Verif.Data
