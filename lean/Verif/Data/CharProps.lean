import Verif.Model.Table
/-!
# Tables of `UnicodeData/CharPropsData.py`

Generated by tools/gen_data.py from the text of /repo. Rows hold 64 entries, least significant first.
-/
namespace Verif.Data

local notation "l" => Tree.leaf
local notation "n" => Tree.node

/-- Rows 0..63 of `propsIndex`. -/
def propsIndex_rows0 : Tree :=
 (n (n (n (n (n (n (l 0x635062d0625061d061e061606100608060005f805f505ed05e805e005d805d005c805c005b805b005aa05a2059d0595059905910589058105790571056d0565055d05550550054805400538053c0534052c0524051c051405110509050104f904f304eb04e304db04d304cb04c504bd04b504ad04a5049d0485047d0475046d)
 (l 0x48d07f007e807e107d907d407cc07c4048d07bc07b407ad048d07a5079d0619077e0795078d078607610776076e0769074307590751074b0725073b0733072d0705071d0715070d06e706fd06f506ef06c906df06d706d106ab06c106b906b3068d06a3069b069506730685067d067b065d066b0665048d0655064d063d0645))
 (n (l 0x8b508ad08a505d8089d0895088d0885087d05d805d80875086d05d805d805d805d805d805d805d805d805d805d805d805d805d805d805d805d805d805d8086808600565056508580850084805d8084205d8083c0834083005d8082805d805d805d805d805d805d805d805d805d805d808180820056508100808080007f805d8)
 (l 0x9d10a0509fd09f909f109e909e109d904bd04bd04bd09c904bd04bd04bd04bd09c1053409ac09b909b209ac09a9050d09a109990991098d09850976097d05d8096e05d8095f0967093c0957094f094c048d0944091c0934092c092405d80914090c090408fe05d808f608ea08e208ee08da05d808bd08d708cf08cd05d808c5)))
 (n (n (l 0xb0b0b04090c0afc0af4090c090c090c090c090c090c090c0aee090c090c090c0ad90ae90ae1090c090c090c090c090c0ac7090c090c0ad20acf0abe0abf090c0ab80ab00aab0aa40a9c090c0a990a910a890a890a890a890a890a890a890a890a740a810a7c0a6d0a650a550a4d0a5d0a450a3d0a350a2d0a150a0d0a250a1d)
 (l 0xbad0ba7090c090c090c090c090c090c0b9f090c090c0b98048d0b900b880b8005340b700b700b780b6805d80b62050d0b5a04bd04bd04bd0b520b420b4a0565090c090c090c0b3a0b340b300b29090c0a890a890a890a890a890a890a890a890b210b1a0a890b130a890a890a890a89090c090c090c090c090c090c090c090c))
 (n (l 0x5d805d805d805d805d805d805d805d805d805d805d805d805d805d805d805d805d805d805d805d805d805d805d805d805d805d805d80c0b05d805d805d80c03090c090c090c090c090c090c090c090c090c090c0bfb0bed090c0bf30bed0ab90be5090c05d80bde05d805d80bd90bd50bcd05d808680bc505d806190bb50bbd)
 (l 0x5d805d805d805d805d805d805d805d805d805d805d805d805d805d805d805d805d805d805d805d805d805d805d805d805d805d805d805d805d805d805d805d805d805d805d805d805d80c1605d805d805d805d805d805d805d805d805d805d805d805d805d805d805d805d805d805d805d805d805d805d805d805d80c1105d8))))
 (n (n (n (l 0x5d805d805d805d805d805d805d805d805d805d805d805d805d805d805d805d805d805d805d805d805d805d805d805d805d805d805d805d805d805d805d805d805d805d805d805d805d805d805d805d805d805d805d805d805d805d805d805d805d805d805d805d805d805d805d805d805d805d805d805d805d805d805d805d8)
 (l 0x5d805d805d805d80c4805d805d80c440c3f0c370c2f0c2905d80c2105d80c1e090c090c05d805d805d805d805d805d805d805d805d805d805d805d805d805d805d805d805d805d805d805d805d805d805d805d805d805d805d805d805d805d805d805d805d805d805d805d805d805d805d805d805d805d805d805d805d805d8))
 (n (l 0x5d805d805d805d805d805d805d805d805d80c6e05d805d805d805d805d805d805d805d805d805d805d805d805d805d805d805d805d805d805d805d805d805d805d80c6c05d805d805d80c6405d805d805d805d805d805d805d805d805d805d805d805d805d805d80c5c0c5605d80c4f05d805d805d805d805d805d805d805d8)
 (l 0x5d805d805d805d805d805d805d80c8b0c8305d805d805d80c7c05d805d805d805d805d805d805d805d805d805d805d805d805d805d805d805d805d805d805d805d805d805d805d805d805d805d805d805d805d805d805d805d805d805d805d805d805d805d805d805d805d805d805d80c7505d805d805d805d805d805d805d8)))
 (n (n (l 0x5d80c9c05d805d805d805d805d805d805d805d805d805d805d805d805d805d805d805d805d805d805d805d805d805d805d805d805d805d805d805d805d805d805d805d805d805d805d80c9805d805d80c9005d805d805d805d805d805d805d805d805d805d805d805d805d805d805d805d805d805d805d805d805d805d805d8)
 (l 0x5d805d805d805d805d805d805d80c9f05d805d805d805d805d805d805d805d805d805d805d805d805d805d805d805d805d805d805d805d805d805d805d805d805d805d805d805d805d805d805d805d805d805d805d805d805d805d805d805d805d805d805d805d805d805d805d805d805d805d805d805d805d805d805d805d8))
 (n (l 0x5d805d805d805d805d805d805d805d805d805d805d805d80ca805d805d805d805d805d805d805d805d805d805d805d805d805d805d805d805d805d805d805d805d805d805d80ca205d805d805d805d805d805d805d805d805d805d805d805d805d805d805d805d805d805d805d805d805d805d805d805d805d805d805d805d8)
 (l 0x5d805d805d805d805d805d805d805d805d805d805d805d805d805d805d805d805d805d805d805d805d805d805d805d805d805d805d805d805d805d805d805d805d805d805d805d805d805d805d805d805d805d805d805d805d805d805d805d805d805d805d805d805d805d805d805d805d805d805d805d805d805d805d805d8)))))
 (n (n (n (n (l 0x5d805d805d805d805d805d805d805d805d805d805d805d805d805d805d805d805d805d805d805d805d805d805d805d805d805d805d805d805d805d80cb505d805d805d805d805d805d805d805d805d805d805d805d805d805d805d805d805d805d805d805d805d805d805d805d805d805d805d805d80cb005d805d805d805d8)
 (l 0x5d805d805d805d805d805d805d805d805d805d805d805d805d805d805d805d805d805d805d805d805d805d80cbf05d805d805d80cba05d805d805d805d805d805d805d805d805d805d805d805d805d805d805d805d805d805d805d805d805d805d805d805d805d805d805d805d805d805d805d805d805d805d805d805d805d8))
 (n (l 0x5d805d805d805d805d805d805d805d80cd905d805d805d80cd20cce0cc705d805d805d805d805d805d805d805d805d805d805d805d805d805d805d805d805d805d805d805d805d805d805d805d805d805d805d805d805d805d805d805d805d805d805d805d805d805d805d805d805d805d805d805d805d805d805d805d805d8)
 (l 0x8ce05d805d805d805d805d805d805d805d805d805d805d805d805d805d805d805d805d805d805d805d805d805d805d805d805d805d805d805d805d805d805d805d805d805d805d805d805d805d805d805d805d805d805d805d805d805d805d805d805d805d805d805d805d805d805d805d805d805d805d805d805d805d805d8)))
 (n (n (l 0xd240d470d3f0d390d3104bd0d2c0d1c0d1405d805d80d040d0c04bd0cfc0cf405d805d805d805d805d805d805d805d809850cef090c0cdf05d805d805d805d805d805d805d805d805d805d805d805d805d805d805d805d805d805d805d805d805d805d805d805d805d805d805d805d805d805d805d805d805d805d805d80ce7)
 (l 0x5d805d805d805d805d805d805d805d805d805d805d805d805d805d805d805d805d805d805d805d805d805d805d805d805d805d805d805d805d805d805d805d80df505d8050d050d0ded0de50de10dd90dd10dc90dc105d80db90db10da905d80da10d910d99067b08ce0d890d82062d0d7a0d670d720d6f0d5f05d80d570d4f))
 (n (l 0x5d805d805d805d805d805d805d805d805d805d805d805d805d805d805d805d805d805d805d805d805d805d805d805d805d805d805d805d805d805d805d805d805d805d805d805d805d805d805d805d805d805d805d805d805d805d805d805d805d805d805d805d805d805d805d805d805d805d805d805d805d805d805d805d8)
 (l 0x5d805d805d805d805d805d805d805d805d805d805d805d805d805d805d805d805d805d805d805d805d805d805d805d805d805d805d805d805d805d805d805d805d805d805d805d805d805d805d805d805d805d805d805d805d805d805d805d805d805d805d805d805d805d805d805d805d805d805d805d805d805d805d805d8))))
 (n (n (n (l 0x5d805d805d805d805d805d805d805d805d805d805d805d805d805d805d805d805d805d805d805d805d805d805d805d805d805d805d805d805d805d805d805d805d805d805d805d805d805d805d805d805d805d805d805d805d805d805d805d805d805d805d805d805d805d805d805d805d805d805d805d805d805d805d805d8)
 (l 0x5d805d805d805d805d805d805d805d805d805d805d805d805d805d805d805d805d805d805d805d805d805d805d805d805d805d805d805d805d805d805d805d805d805d805d805d805d805d805d805d805d805d805d805d805d805d805d805d805d805d805d805d805d805d805d805d805d805d805d805d805d805d805d805d8))
 (n (l 0xe010e090dfd05d805d805d805d805d805d805d805d805d805d805d805d805d805d805d805d805d805d805d805d805d805d805d805d805d805d805d805d805d805d805d805d805d805d805d805d805d805d805d805d805d805d805d805d805d805d805d805d805d805d805d805d805d805d805d805d805d805d805d805d805d8)
 (l 0xe110e110e110e110e110e110e110e110e110e110e110e110e110e110e110e110e110e110e110e110e110e110e110e110e110e110e110e110e110e110e110e11048d048d048d048d048d048d048d048d048d048d048d048d048d048d048d048d048d048d048d048d048d048d048d048d048d048d048d048d048d048d048d048d)))
 (n (n (l 0xe190e190e190e190e190e190e190e190e190e190e190e190e190e190e190e190e190e190e190e190e190e190e190e190e190e190e190e190e190e190e190e190e190e190e190e190e190e190e190e190e190e190e190e190e190e190e190e190e190e190e190e190e190e190e190e190e190e190e190e190e190e190e190e19)
 (l 0xe190e190e190e190e190e190e190e190e190e190e190e190e190e190e190e190e190e190e190e190e190e190e190e190e190e190e190e190e190e190e190e190e190e190e190e190e190e190e190e190e190e190e190e190e190e190e190e190e190e190e190e190e190e190e190e190e190e190e190e190e190e190e190e19))
 (n (l 0xe190e190e190e190e190e190e190e190e190e190e190e190e190e190e190e190e190e190e190e190e190e190e190e190e190e190e190e190e190e190e190e190e190e190e190e190e190e190e190e190e190e190e190e190e190e190e190e190e190e190e190e190e190e190e190e190e190e190e190e190e190e190e190e19)
 (l 0xeab0ea308ee0ec80ec30ebb047d0eb30e9b05d805d805d80e950e8d0e860e7e0e760e7205d80e6c05d80e680e6005d805d805d805d805d805d805d805d805d805d80e5b0e5305d805d80e430e3b0e4b048d08d905d805d80e3505d805d805d80e2d0e280cda05d80e2105d805d805d80e190e190e190e190e190e190e190e19))))))
 (n (n (n (n (n (l 0x18b418741858182017e017b417801740170016c0168816541644160415c415941554152014e014d014901450142413e413ac136c132c12f412b41274123412340e110e110e110e110e110e110e110e110e110e110e110e110e110e110e110e110e110e110e110e110e110e110e110e110e110e110e110e110e110e110e110e11)
 (l 0x10b30a40107301db01db01db103d01db10320ff201db0fba01db01db01db01db01db01db01db0fa601db01db01db01db0f7901db0f510f1d01db01db0ef90ec20e820e420e020dc20d820d420a400a400d020ce20a400a400a400a400ca20c6201db01db0c220a400a400a400a400be20a400bc00a400b800b400b000ac00a80))
 (n (l 0xa400a400a400a400a400a400a400a400a400a400a400a400a400a400a400a400a400a400a400a400a400a400a400a400a400a400a400a400a400a400a400a400a400a400a400a400a400a400a400a400a400a400a400a400a400a400a400a400a400a400a400a400a400a400a400a400a400a400a400a400a4010f301db01db)
 (l 0xa400a400a400a400a400a400a400a400a400a400a400a400a400a400a400a400a400a400a400a400a400a400a400a400a400a400a400a400a400a400a400a400a400a400a400a400a400a400a400a400a400a400a400a400a400a400a400a400a400a400a400a400a400a400a400a400a400a400a400a400a400a400a400a40)))
 (n (n (l 0xa400a400a400a400a400a400a400a400a400a400a400a400a400a400a400a400a400a400a400a400a400a400a400a400a400a400a400a400a400a400a400a400a400a400a400a400a400a400a400a400a400a400a400a400a400a400a400a400a400a400a400a400a400a400a400a400a400a400a400a400a400a400a400a40)
 (l 0xa400a400a400a400a400a400a400a400a400a400a400a400a400a400a400a400a400a400a400a400a400a400a400a400a400a400a400a400a400a400a400a400a400a400a400a400a400a400a400a400a400a400a400a400a400a400a400a400a400a400a400a400a400a400a400a400a400a400a400a400a400a400a400a40))
 (n (l 0xa400a400a400a400a400a400a400a400a400a400a400a400a400a400a400a400a400a400a400a400a400a400a400a400a400a400a400a400a400a400a400a400a400a400a400a400a400a400a400a400a400a400a400a400a400a400a400a400a400a400a400a400a400a400a400a400a400a400a400a400a400a400a400a40)
 (l 0xa400a400a400a400a400a400a400a400a400a400a400a400a400a400a400a400a400a400a400a400a400a400a400a400a400a400a400a400a400a400a4011330a400a400a400a400a400a400a400a400a400a400a400a400a400a400a400a400a400a400a400a400a400a400a400a400a400a400a400a400a400a400a400a40))))
 (n (n (n (l 0x1173070007000700070007000700070007000700070007000700070007000700070007000700070007000700070007000700070007000700070007000700070011730700070007000700070007000700070007000700070007000700070007000700070007000700070007000700070007000700070007000700070007000700)
 (l 0x48d048d048d048d048d048d048d048d048d048d048d048d048d048d048d048d048d048d048d048d048d048d048d048d048d048d048d048d048d048d048d048d048d048d048d048d048d048d048d048d048d048d048d048d048d048d048d048d048d048d048d048d048d048d048d048d048d048d048d048d048d048d048d048d))
 (n (l 0x48d048d048d048d0e7208da0b7805d805d805d805d805d805d805d805d805d8048d048d048d048d0f8505d80f7e05d80f6e0f760f660f5e05d80f5a056f0565048d0f5205d80f4a0f420f3e0f3605d80f2e0f2605d808ce048d048d048d048d0f1e0f1a0f160f060eff0f0e0eef0ef70ee705d805d805d8048d0edf0ed70ed0)
 (l 0xb7810810e68048d048d10791072106a048d048d106205d8105a048d048d048d048d048d048d048d048d048d105205d8104a050d10420565048d103a05d805d8048d048d1032102a1022101a101205d81007100f048d0fff0ff70fe00fef0fe80fc80fd80fd005d8048d048d0fc00fb80fb0048d0fa808ee0fa00f980f8d0f95)))
 (n (n (l 0x48d048d048d048d048d048d11900848048d1180118805d811781170116805d8048d1160115805d8048d048d048d048d048d1150114805d811401138113005d8048d048d048d048d111211281120111a110a0630110210fa048d048d10eb10f310e310d310db096710cb10bf10b710c710af10a910a1096710891099060e1091)
 (l 0x1253125b124b048d048d048d048d048d1244048d048d048d048d048d048d048d048d048d11801238124012241230122c048d048d1215121d120211fa120d1208048d048d048d048d048d048d048d048d08cf05d811ea11f205d811da11d211e211be11ca11c6048d048d11a811b611b011a0050d0565048d048d048d119805d8))
 (n (l 0x48d048d048d048d048d048d048d048d048d048d048d048d048d048d048d048d048d048d048d048d048d128305d805d805d805d805d805d81263127b1273126b048d048d048d08d905d805d805d805d805d805d805d805d805d805d805d805d805d805d805d805d805d805d805d805d805d805d805d805d805d805d805d805d8)
 (l 0x48d048d048d048d048d048d048d048d048d048d048d048d048d048d048d048d048d048d048d048d048d048d048d048d048d048d048d048d048d048d128b05d805d805d805d805d805d805d805d805d805d805d805d805d805d805d805d805d805d805d805d805d805d805d805d805d805d805d805d805d805d805d805d805d8)))))
 (n (n (n (n (l 0x48d12ab12c312bb12b305d812a30e68048d048d129b08ee08cf05d805d805d805d805d805d805d805d805d805d805d805d805d805d805d805d805d8048d048d048d048d048d048d048d048d048d048d048d048d048d129305d805d805d805d805d805d805d805d805d805d805d805d805d805d805d805d805d805d8048d048d)
 (l 0x5d805d805d805d805d805d805d805d805d805d805d805d805d805d805d805d805d805d805d805d805d805d805d805d805d805d805d805d805d805d812e6048d048d12de12d812d305d805d8048d048d048d12cb050d0565048d048d048d048d048d048d048d048d048d048d048d048d048d048d048d048d048d048d048d048d))
 (n (l 0x5d805d805d805d805d805d805d805d805d805d805d805d805d805d805d805d805d805d805d805d805d805d805d805d805d805d805d805d805d805d812ee05d805d805d805d805d805d805d805d805d805d805d805d805d805d805d805d805d805d805d805d805d805d805d805d805d805d805d805d805d805d805d805d805d8)
 (l 0x48d048d048d048d048d048d0e0105d805d805d805d805d805d805d805d805d805d805d812fb12f4048d08ee05d805d805d805d805d805d805d805d8048d048d048d048d048d048d048d048d048d048d048d048d048d048d048d048d048d048d048d048d048d048d048d103a048d08da05d805d805d805d805d805d805d805d8)))
 (n (n (l 0x48d048d048d048d048d048d048d048d048d048d048d048d048d048d048d048d048d048d048d048d048d048d048d048d130e1306130105d805d805d8048d048d048d048d048d048d048d048d048d048d048d048d048d048d048d048d048d048d048d048d048d048d048d048d048d048d048d048d048d048d048d048d048d048d)
 (l 0x13b913cd13c613be13b613ca13c313bb13b3135d13ab135a13a8136b135c13601359137213a0139b1393138b135d1383137b1373136b136513601359048d048d048d048d13490abb090c090c1341048d048d048d048d1339090c090c1331090c132b1325131d090c1316090c0ba7090c090c090c090c090c090c090c048d048d))
 (n (l 0x48d048d048d048d048d048d048d048d048d048d048d048d048d048d048d048d048d048d048d048d048d048d048d048d048d048d048d048d048d048d048d048d048d048d048d048d048d048d048d048d13dd13f313ec053413e50534090c090c090c090c090c090c090c090c090c090c090c090c090c090c090c090c135113d5)
 (l 0x48d048d048d048d048d048d048d048d048d048d048d048d048d048d048d048d048d048d048d048d048d048d048d048d048d048d048d048d048d048d048d048d048d048d048d048d048d048d141a05d8048d048d048d048d048d048d048d048d048d048d048d140a141205d8048d048d048d048d048d048d140213fa048d048d))))
 (n (n (n (l 0x48d048d048d048d048d048d1462048d1492148a1482147a1472146a048d048d048d048d048d048d1452145a048d048d1442144a143a048d048d048d048d048d048d048d048d048d048d048d048d048d048d048d048d048d048d048d048d048d048d048d048d142a14320565048d142205d805d805d805d805d805d8048d048d)
 (l 0x90c090c0b9f090c090c090c14e714df090c090c090c090c090c090c090c090c090c090c090c090c090c090c090c090c090c090c090c090c090c090c14d7090c090c090c090c090c090c090c048d048d048d048d14cf14c714bf14bb14b3048d0ba9090c090c090c090c14ab0ba714a3149f0b9f090c090c149a090c048d048d))
 (n (l 0x48d048d048d048d048d048d048d048d048d048d048d048d048d048d048d048d048d048d048d048d048d048d048d048d048d048d048d048d048d048d117c0abe090c153b090c090c090c090c048d1533152e152815200b9f090c090c090c151b090c090c1514090c090c090c048d048d150c1507090c14ff090c149a14f714ef)
 (l 0x5d805d805d805d805d805d805d805d805d805d805d805d805d805d805d805d805d805d805d805d805d805d805d805d805d805d805d805d805d805d805d805d805d805d805d805d805d805d805d805d805d805d805d805d805d805d805d805d805d805d805d805d8155a05d8155205d805d805d8154a05d805d81543048d048d)))
 (n (n (l 0x5d805d805d805d805d805d80cbf05d805d805d805d805d805d805d805d805d805d805d805d805d805d805d805d805d805d805d805d805d805d805d805d805d805d805d805d805d805d805d805d805d805d805d805d805d805d805d81572156a05d805d805d805d805d805d805d805d805d805d8156205d805d80c8005d805d8)
 (l 0x5d805d805d805d805d805d805d805d805d805d805d805d805d805d805d805d805d805d805d805d805d805d805d805d805d805d805d805d805d805d805d805d805d805d8157905d805d805d805d805d805d805d805d805d805d805d805d805d805d805d805d805d805d805d805d805d805d805d805d805d805d805d805d805d8))
 (n (l 0x5d805d805d805d805d805d8158705d805d805d805d805d805d805d805d805d805d805d805d805d805d805d805d805d805d805d805d805d805d805d805d805d805d805d805d805d805d805d805d805d805d805d805d805d805d805d8158005d805d805d805d805d805d805d805d805d805d805d805d805d805d805d805d805d8)
 (l 0x5d805d805d805d805d805d805d805d805d805d805d805d805d805d8048d0f5e05d805d805d805d805d805d805d805d805d805d805d805d805d805d805d805d805d805d805d805d805d805d805d805d805d805d805d805d805d805d805d805d805d805d805d805d805d805d805d805d805d805d805d805d805d805d805d805d8)))))))

/-- Rows 64..127 of `propsIndex`. -/
def propsIndex_rows1 : Tree :=
 (n (n (n (n (n (n (l 0x5d805d805d805d805d805d805d805d805d805d805d805d805d80f5e05d805d805d805d805d805d8158b05d805d805d805d805d805d805d805d805d805d805d805d805d805d805d805d805d805d805d805d805d805d805d805d805d805d805d805d805d805d805d805d805d805d805d805d805d805d805d805d805d805d805d8)
 (l 0x5d805d805d805d805d805d805d805d805d805d805d805d805d8106605d805d805d805d805d805d805d805d805d805d805d805d805d805d805d805d805d805d805d805d805d805d805d805d805d805d805d805d805d805d805d805d805d805d805d805d805d805d805d805d805d805d805d805d805d805d805d805d805d805d8))
 (n (l 0x5d805d805d805d805d805d805d805d8159805d805d805d805d8048d048d048d048d048d048d048d048d048d048d048d048d048d048d048d048d048d048d048d048d048d048d048d048d048d048d048d048d048d048d048d048d159005d805d805d805d805d805d805d805d805d805d805d805d805d805d805d805d805d805d8)
 (l 0x5d805d805d805d805d805d805d805d805d805d805d805d805d8048d048d048d048d048d048d048d048d048d048d048d048d048d048d048d048d048d048d048d048d048d048d048d048d048d048d048d048d048d048d048d048d048d048d048d048d048d048d048d048d048d048d048d048d048d048d048d0f5e05d805d805d8)))
 (n (n (l 0x5340534053405340534048d048d048d048d15a015a015a015a8048d048d048d048d048d048d048d048d048d048d048d048d048d048d048d048d048d048d048d048d048d048d048d048d048d048d048d048d048d048d048d048d048d048d048d048d048d065505d805d805d805d805d805d805d805d805d805d805d805d805d8)
 (l 0xe190e190e190e190e190e190e190e190e190e190e190e190e19048d048d048d048d048d048d048d048d048d048d048d048d048d048d048d048d048d048d048d048d048d048d048d048d048d048d048d048d048d048d048d048d048d048d048d048d048d048d048d048d048d048d048d048d048d048d048d048d15b005340534))
 (n (l 0xf000f000f000f000f000f000f000f000f000f000f000f046c15b80e190e190e190e190e190e190e190e190e190e190e190e190e190e190e190e190e190e190e190e190e190e190e190e190e190e190e190e190e190e190e190e190e190e190e190e190e190e190e190e190e190e190e190e190e190e190e190e190e190e19)
 (l 0x10001000100010001000100010001000100010001001700170018001800180017001702890249020901c901890149010900c900890049001700170013001700180017001500140017001700170019001700170017000c000f000f000f000f000f000f000f000f000f000f000f000f000f000f000f000f000f000f000f000f))))
 (n (n (n (l 0xf001800150018001400020002000200020002000200020002000200020002000200020002000200020002000200020002000200020002000200020002001a0016001a001500170014000100010001000100010001000100010001000100010001000100010001)
 (l 0xf000f000f000f000f000f000f000f000f000f000f000f0000000000000000000000000000000000000000000000000000000000000000000000000000000000000000000000000000000000000000000000000000000000000000000000000000000000000000000000000000000000000000000000000000000000000000))
 (n (l 0x10001000100010001000100010001000100010001000100173ccb344b34cb001d0005030b001a001700170002001a038b034b0018001b001a001b00100018001c0005001b001a0017001b00190019001900190017000c000f000f000f000f000f000f000f000f000f000f000f000f000f000f000f000f000f000f000f000f)
 (l 0x2000100020001000200010002000100020001000200010002000200020002000200020002000200180002000200020002000200020002000200020002000200020002000200020002000200020002000200020002000200020001000100010001000100010001001800010001000100010001000100010001000100010001)))
 (n (n (l 0x2000100020001000200010002000100020001000200020001000200010002000100020001000200020001000200010002000100020001000200010002000100020001000200010002000100020001000200010002000100020001000200010002000100020001000200010002000100020001000200010002000100020001)
 (l 0x1000200010001000100010002000200010001000100020001000100020001000200010001000200020002000100020001000200010001000200010002000100020001000200010002000100020001000200010002000100020001000200010002000100020001000200010002000100020001000200010002000100020001))
 (n (l 0x1000200010002000100020001000200030001000200030001000200030001000500050005000500020002000200010005000200020001000100020001000200010001000100020001000100020001000200020001000200010001000200010002000100020001000100020001000100020002000200010001000100020001)
 (l 0x2000100020001000200010002000100020001000200010002000100020001000200010002000100020001000200010002000100020001000100010002000100020003000100020002000100020001000200010002000100020001000200010002000100020001000200010002000200010002000100020001000200010002)))))
 (n (n (n (n (l 0x2000200020002000200020002000200020002000200020002000100020001000200010002000100020001000100010001000200010002000200010001000200010001000200020002000200020002000200010002000100020001000200010002000100020001000200010002000100020001000200010002000100020001)
 (l 0x2000200020002000200020002000200020002000200020002000200020002000200020002000200020002000200020002000200020005000200020002000200020002000200020002000200020002000200020002000200020002000200020002000200020002000200020002000200020002000200020002000200020002))
 (n (l 0x1a0004001a0004001a001a001a001a001a001a001a00040004000400040004001a001a001a001a001a001a001a001a001a001a001a001a001a001a000400040004000400040004000400040004000400040004001a001a001a001a000400040004000400040004000400040004000400040004000400040004000400040004)
 (l 0x600060006000600060006000600060006000600060006000600060006000600060006000600060006000600060006000600060006000600060006000600060006000600060006000600060006000600060006000600060006000600060006001a001a001a001a001a001a001a001a001a001a001a001a001a001a001a001a)))
 (n (n (l 0x10001000100010001000100010001000100010001000100010001000100020001000100000001000000010001000100170001001a001a00000000000000000001001700020002000200040000000000020001001a000400020001000200010006000600060006000600060006000600060006000600060006000600060006)
 (l 0x2000100020001000200010002000100020001000200010002000100020001000200010002000100020002000200010001000100020002000100020002000200020002000200020002000200020002000200020002000200020002000200020002000200020002000100010001000100010001000100010001000000010001))
 (n (l 0x1000100010001000100010001000100010001000100010001000100010001000100010001000100010001000100010001000100010001000100010001000100010001000100010001000100010001000100010001000100010001000100020002000100010002000100180002000100020002000200020002000100020001)
 (l 0x2000100020001000200010002000100020001000200010002000100020001000200010002000100020001000200010002000100020001000200020002000200020002000200020002000200020002000200020002000200020002000200020002000200020002000200020002000200020002000200020001000100010001))))
 (n (n (n (l 0x200010002000100020001000200010002000100020001000200010002000100020001000200010002000100020001000200010002000100020001000200010002000100020001000200010002000100020001000200010002000100020001000200010007000700060006000600060006001b000200010002000100020001)
 (l 0x2000100020001000200010002000100020001000200010002000100020001000200010002000100020001000200010002000100020001000200010002000100020001000200010002000100020001000200010002000100020002000100020001000200010002000100020001000200010002000100010002000100020001))
 (n (l 0x2000200020002000200020002000200020002000200020002000200020002000200020002000200020002000200020017001700170017001700170004000000000001000100010001000100010001000100010001000100010001000100010001000100010001000100010001000100010001000100000002000100020001)
 (l 0x6001300060006000600060006000600060006000600060006000600060006000600060006000600060006000600060006000600060006000600060006000600060006000600060006000600060006000600060006000600060006000600000019001b001b0000000000130017000200020002000200020002000200020002)))
 (n (n (l 0x170017000500050005000500000000000000000005000500050005000500050005000500050005000500050005000500050005000500050005000500050005000500050005000500050000000000000000000000000000000000060017000600060017000600060017)
 (l 0x500050005000500050005000500050005000500050005000500050005000500050005000500050005000500050005000500050005000500050005000500050017001700000010001700060006000600060006000600060006000600060006001b001b00170017001900170017001800180018001000100010001000100010))
 (n (l 0x500050005000500050005000500050005000500050005000500050005000600050005001700170017001702890249020901c901890149010900c90089004900060006000600060006000600060006000600060006000600060006000600060006000600060006000600050005000500050005000500050005000500050004)
 (l 0x6001b00100006000600060006000600060006000500170005000500050005000500050005000500050005000500050005000500050005000500050005000500050005000500050005000500050005000500050005000500050005000500050005000500050005000500050005000500050005000500050005000500050005))))))
 (n (n (n (n (n (l 0x500050005000500050005000500050005000500050005000500050006000500100000001700170017001700170017001700170017001700170017001700170005001b001b00050005000502890249020901c901890149010900c900890049000500050006000600060006001b000600060004000400060006000600060006)
 (l 0x5000500050005000500050005000500050005000500050005000500050005000500050005000500050005000500050005000500050000000000060006000600060006000600060006000600060006000600060006000600060006000600060005000500050005000500050005000500050005000500050005000500050005))
 (n (l 0x5000502890249020901c901890149010900c9008900490000000000000000000000000000000000000000000000000000000000050006000600060006000600060006000600060006000600050005000500050005000500050005000500050005000500050005000500050005000500050005000500050005000500050005)
 (l 0x600060006000400060006000600040006000600060006001900190006000000000004001700170017001b000400040006000600060006000600060006000600060005000500050005000500050005000500050005000500050005000500050005000500050005000500050005000500050005000500050005000500050005)))
 (n (n (l 0x5000500050005000500050005000500050005000500050006000600060006000600040006000600060006000500050005000500050005000500050005000500050005000500050005000500050005000500050005000500000017001700170017001700170017001700170017001700170017001700170000000000060006)
 (l 0x6000600060006000600060006000600060010000600060000000000000000000000000000000000000000000000000000000000000000000000000000000000000005000500050005000500050005000500050005000500000017000000000006000600060005000500050005000500050005000500050005000500050005))
 (n (l 0x6000000000000000000000000000000000000000000000005000500050005000500050005000500050005000000050005000500050005000500050005000500050005000500050005000500050005000500050005000500060006000600060006000600060006000600060006000600060006000600060006000600060006)
 (l 0x50005000500050005000500050005000500050005000500050005000500050008000600060006000500050005000500050005000500050005000500050005000500050004001702890249020901c901890149010900c900890049001700170006000600050005000600060006000600060006000600060006000600060006))))
 (n (n (n (l 0x1890149010900c9008900490000000000060006000500050005000500050005000500050005000500060006000600060006000600060005000800080006000800080008000800060006000600060006000600060006000800080008000500060008000600050005000500050005000500050005000500050005000500050005)
 (l 0x500000005000500050005000500050005000000050005000500050005000500050005000500050005000500050005000000000005000500000000000500050005000500050005000500050000000800080006000500000006001700050019001b094b3ccb34cb3fcb35cb37cb001900190005000502890249020901c9))
 (n (l 0x500050006000602890249020901c901890149010900c90089004900000000000000000000000000050000000500050000000000000000000800000000000000000000000000000000000500060008000800000000000800080000000000060006000600060008000800080005000600000000000500050005000500000000)
 (l 0x50005000000050005000000050005000000050005000500050005000500050000000500050005000500050005000500050005000500050005000500050000000000050005000000000000000000050005000500050005000500000008000600060000000000000000000000000000000000000000001700060005)))
 (n (n (l 0x60006000500000000000000000000000000000019001702890249020901c901890149010900c900890049000000000006000600050005000000050000000500050005000500000000000000000000000000000006000000000000000600060006000000000006000600000000000000000006000600080008000800000006)
 (l 0x6000600060008000800080005000600000000000500050005000500050000000500050000000500050005000500050005000500000005000500050005000500050005000500050005000500050005000500000005000500050000000500050005000500050005000500050005000000080006000600000006000600060006))
 (n (l 0x8000800060000000000000000000000000000000000003fcb35cb37cb3ccb344b34cb0005001b02890249020901c901890149010900c9008900490000000000060006000500050000000000000000000000000000000000000000000000000000000000000005000000000006000800080000000800060006000000060006)
 (l 0x8000000000008000800000000000600060006000600080006000800050006000000000005000500050005000500000005000500000005000500050005000500050005000000050005000500050005000500050005000500050005000500050005000000000005000500000000000500050005000500050005000500050000)))))
 (n (n (n (n (l 0x5000500050005000500050000000500060000000000000000000000000000001b0019001b001b001b001b001b001b784b1e4b07cb02890249020901c901890149010900c90089004900000000000000000000000000050000000500050000000000000000000800060006000000000000000000000000000000060008)
 (l 0x8000800000008000800080000000000000008000800060008000800000000000000000005000500050005000500050005000500050005000500050000000000000005000500050000000000000005000500000000000000050005000000050000000500050000000000000005000500050005000000050005000500000000))
 (n (l 0x500050005000500050005000500060008000800080006001b060b05cb058b060b05cb058b054b0017000000000000000000000000000002890249020901c901890149010900c90089004900000000000600060005000500000000000000000000000000000000000800000000000000000000000000050000000000060008)
 (l 0x6000600060006000000060006000600000008000800080008000600060006000500000000000000050005000500050005000500050005000500050005000500050005000500050000000500050005000500050005000500050005000500050005000500050005000000050005000500000005)))
 (n (n (l 0x50005000000050005000500000005000500050005000500050005000500170008000800060005000000000000000000000000000000000000000000000000000000050005000002890249020901c901890149010900c900890049000000000006000600050005000000000000000000000005000500050000000600060000)
 (l 0x80008000000000000000000000000000000060006000800080000000800080006000000080008000800080008000600080005000600000000000500050005000500050000000500050005000500050005000500050005000500000005000500050005000500050005000500050005000500050005))
 (n (l 0x5000500050005000500050005000500050005000000050005000500000005000500050005000500050005000500050008000800060006000500050005000500050005001b3fcb35cb37cb3ccb344b34cb784b1e4b07cb02890249020901c901890149010900c9008900490000000000060006000500050000000500000000)
 (l 0x8900490000000000000000000000000005350bc94b364bc90bcb4bca0bcc0b00080005000500050000000000000000001b000500060008000800080000000800080008000000060006000600060008000800080005000600060005000500050005000500050005000500050005000500050005000500050005000500050005))))
 (n (n (n (l 0x5000500050005000500050005000500050005000500050005000500000000000000050005000500050005000500050005000500050005000500050005000500050005000500000008000800060000000000000000000000000000000000000000000000000017000800080000000002890249020901c901890149010900c9)
 (l 0x5000500050005000500050005000500050005000500050008000800080008000800080008000800000006000000060006000600080008000800000000000000000006000000000000000500050005000500050005000500000000000500000005000500050005000500050005000500050000000500050005000500050005))
 (n (l 0x5000500050005000500000005000000050005000000000000000000000017001702890249020901c901890149010900c900890049001700060006000600060006000600060006000400050005000500050005000500190000000000000000000600060006000600060006000600050005000600050005000500050005)
 (l 0x60006000600060006000600000004000000050005000500050005000000000005000600060006000600060006000600060006000500050006000500050005000500050005000500050005000500000005000000050005000500050005000500050005000500050005000500050005000500050005000500050005)))
 (n (n (l 0x5c4b544b4c4b444b3c4b344b02890249020901c901890149010900c900890049001b001b001b001b001b001b00060006001b001b001b0017001b001700170017001700170017001700170017001700170017001700170017001b001b001b000500050005000500050000000002890249020901c901890149010900c900890049)
 (l 0x6000600060006000600060006000600060006000600000000000000000005000500050005000500050005000500050005000500050005000500050005000500050005000500050005000500050000000500050005000500050005000500050008000800150014001500140006001b0006001b0006001b2c4b744b6c4b644b))
 (n (l 0x1b001b00000006000600060006000600060006000600060006000600060006000600060006000600060006000600060006000600060006000600060006000600060006000600000006000600060006000600060006000600060006000600050005000500050005000600060017000600060006000600060008000600060006)
 (l 0x500060006000800080006000600080006000600060006000600060008000600060006000600080008000500050005000500050005000500050005000500050000000000000000000000170017001b001b001b001b00170017001700170017001b001b0000001b001b001b001b001b001b0006001b001b001b001b001b001b)))))))

/-- Rows 128..191 of `propsIndex`. -/
def propsIndex_rows2 : Tree :=
 (n (n (n (n (n (n (l 0x50005000500050005000500050005000500050005000600060006000600050005000500080008000800080008000800080005000500080008000800050006000600060005000500050005000600060008000800050005000500050005000500170017001700170017001702890249020901c901890149010900c900890049)
 (l 0x20002000200040017000200020002000200020002000200020002000200020002000200020002000200020002000200020002000200020002000200020002001b001b000600080008000802890249020901c901890149010900c9008900490008000500060008000800080008000800080006000600080008000600050005))
 (n (l 0x50005000500050000000500000005000500050005000500050005000000000005000500050005000000050005000500050005000500050005000500020002000200020002000200020002000200020002000200020002000200020000000000010000000000000000000000010000000100010001000100010001)
 (l 0x5000500050005000500050005000500000000000500050005000500000005000000050005000500050005000500050000000000050005000500050000000500050005000500050005000500050005000500050005000500050005000500050000000000050005000500050000000500050005000500050005000500050005)))
 (n (n (l 0x6000600060000000000050005000500050005000500050005000500050005000500050005000500050005000500050005000500050005000500050005000500000000000500050005000500000005000500050005000500050005000500050005000500050005000500050005000500000005000500050005000500050005)
 (l 0x1b001b001b001b001b001b001b001b001b001b0005000500050005000500050005000500050005000500050005000500050005000000000000788b1e4b1bcb194b16cb144b11cb0f4b0ccb0a4b07cb050b04cb048b044b040b03cb038b034b030b001700170017001700170017001700170017))
 (n (l 0x5000500050005000500050005000500050005000500050005000500050005000500050005000500050005000500050005000500050005000500050005001300000000000200020002000200020002000000000001000100010001000100010001000100010001000100010001000100010001000100010001000100010001)
 (l 0x17000500050005000500050005000500050005000500050000000000000015001400050005000500050005000500050005000500050005000500050005000500050005000500050005000500050005000500050005000c000500050005000500050005000500050005000500050005000500050005000500050017001b0005))))
 (n (n (n (l 0x500050005000500050005000500050005000500050005000000000000000000000000000000000000000000000006000600060005000500050005000000050005000500050005000500050005000500050005000500050000000000000000000000000000000500050005000500050005000500050a0a09ca098a00170017)
 (l 0x5000500050005000500050005000500050005000500050000000000000000000000000000000000000000000000000006000600050005000500050005000500050005000500050005000500050005000500050005000500000000000000000000000000000000000000170017000600060006000500050005000500050005))
 (n (l 0x6000600060008000800060008000800080008000800080008000800060006000600060006000600060008000600060005000500050005000500050005000500050005000500050005000500050005000500050005000500000000000000000000000000000000000000000000000000060006000000050005000500000005)
 (l 0x50006000500050005000500050005000500050005000000000000000000000000078b074b070b06cb068b064b060b05cb058b054b00000000000000000000000002890249020901c901890149010900c90089004900000000000600050019001700170017000400170017001700060006000600060006000600060006)))
 (n (n (l 0x50005000500050005000500050005000400050005000500000000000000000000000002890249020901c901890149010900c900890049000000100006000600060017001700170017001300170017001700170017001700050005000500050005000500050005000500050005000500050005000500050000000000000000)
 (l 0x50005000500050005000500050005000500050005000500050005000500050005000500050005000500050005000500050005000500060006000500050005000500050000000000000000000000000000000500050005000500050005000500050005000500050005000500050005000500050005000500050005))
 (n (l 0x5000500050005000500050005000502890249020901c901890149010900c90089004900170017000000000000001b0000000000000000000600060006000800080008000800080008000600080008000000000000000000080008000800060006000800080008000800060006000600000000000000000000000000000000)
 (l 0x5000500050005000500050005000500000000000000000000000000000000000000000000000500050005000500050000000000050005000500050005000500050005000500050005000500050005000000050005000500050005000500050005000500050005000500050005000500050005000500050005000500050005)))))
 (n (n (n (n (l 0x1b001b001b001b001b001b001b001b001b001b001b001b001b001b001b001b001b001b000000000000030b02890249020901c901890149010900c90089004900000000000000000000000000050005000500050005000500050005000500050005000500050005000500050005000500000000000000000005000500050005)
 (l 0x17001700170017001700170004001700170017001700170017001700170017000000000006000800080006000600050005000500050005000500050005000500050005000500050005000500050005000500050005000500050005001b001b001b001b001b001b001b001b001b001b001b001b001b001b001b001b))
 (n (l 0x8000800080006000600060006000600060006000600080008000600080006000000060006000600060006000600060008000600080005000500050005000500050005000500050005000500050005000500050005000500050005000500050006000700060006000600060006000600060006000600060006000600060006)
 (l 0x60006000600060006001b001b001b001b001b001b001b001b001b001b001700000000000000000000000002890249020901c901890149010900c90089004900000000000000000000000002890249020901c901890149010900c9008900490006000000000006000600060006000600060006000600060006000800080008)))
 (n (n (l 0x500050005000500050005000500050005000500050008000600060006000600000000000000000000000000000000000000000000000000000000000000000000000000000000000000000000000000000000000000000000000000000006000000000000001b001b001b001b001b001b001b001b001b0006000600060006)
 (l 0x600060008000500170017001700170017001702890249020901c901890149010900c90089004900000000000000000005000500050005000500050005000800080006000800080008000800080006000800060006000600060006000800060005000500050005000500050005000500050005000500050005000500050005))
 (n (l 0x80006000500050005000500050005000500050005000500050005000500050005000500050005000500050005000500050005000500050005000500050005000500080006000600050005000500050005000502890249020901c901890149010900c900890049000500050006000600060008000600060008000800060006)
 (l 0x8000800080008000800080008000800050005000500050005000502890249020901c901890149010900c90089004900050005000500000000000002890249020901c901890149010900c900890049001700170017001700000000000000000000000000000000000800080006000600060008000600080008000800060006))))
 (n (n (n (l 0x2000200020002000200020002000200020017001700040004000400040004000400050005000500050005000500050005000500050005000500050005000500050005000500050005000500050005000500170017001700170017000000000000000600060008000800060006000600060006000600060006)
 (l 0x6000600060006000600060006000600170006000600060000000000000000000000000000000000170017001700170017001700170017000100010001000000000001000100010001000100010001000100010001000100010001000100010001000100010001000100010001000100010001000100010000000000000000))
 (n (l 0x4000400040004000400040004000400040004000400040004000400040004000200020002000200020002000200020002000200020002000000000000000000000005000600060008000500050006000500050005000500050005000600050005000500050006000600060006000600060006000800060006000600060006)
 (l 0x4000200020002000200020002000200020002000200020002000200020002000200020002000200020002000200020002000200020002000200020002000400020002000200020002000200020002000200020002000200020004000400040004000400040004000400040004000400040004000400040004000400040004)))
 (n (n (l 0x2000200020002000200020002000100020001000200010002000100020001000200010002000100020001000200010002000100020001000600060006000600060000000600060006000600060006000600060006000600060006000600060006000600060006000600060006000600060006000600060004000400040004)
 (l 0x10001000100010000000000020002000200020002000200010001000100010001000100010001000200020002000200020002000200020000001a001a0003000100010001000100020002000000020002000200000000001a001a001a00010001000100010001000200020002000200020002000200020002000100020002))
 (n (l 0x1000000010000000200020002000200020002000200020000000000010001000100010001000100000000000200020002000200020002000100010001000100010001000100010002000200020002000200020002000200010001000100010001000100010001000200020002000200020002000200020000000000010001)
 (l 0x3000300030003000200020002000200020002000200020003000300030003000300030003000300020002000200020002000200020002000000000002000200020002000200020002000200020002000200020002000200010001000100010001000100010001000200020002000200020002000200020001000000010000))))))
 (n (n (n (n (n (l 0x1700170017001700170015001400180017001700170016001a001a001a0000000100010001000100020002000000000002000200020002001a001a001a00030001000100010001000200020000000200020002001a001a001a0002001a00030001000100010001000200020000000200020002000200020003000300030003)
 (l 0x10000c000c000c000c000c000c000c000c000c000c000c000400150014001800180018050b04cb048b044b040b03cb00000000000402cb0010001000100010001000100010001000100010000000100010001000100010000c0017001700170017001700170017001700170017001600170018001700170017001700170017))
 (n (l 0x180018050b04cb048b044b040b03cb038b034b030b02cb00160017001700170017001d001c001700170017001700170017001700170017000c00100010001000100010000e000d00170017001700170017001700170017001c0014001d001c001c0014001d001c001700170013001300130013001300130010001000100010)
 (l 0x19001900190019001900190019001900190019001900190019001900190019001900190019001900190019001900190019001900190019001900190019001900000000000000040004000400040004000400040004000400040004000400040000001500140018)))
 (n (n (l 0x10001001b0001001b0001001b0001001b001b001b001b0000000000000000000000000000000000000000000000000000000000000006000600060006000600060006000600060006000600060007000700070006000700070007000700060006000600060006000600060006000600060006000600060000000000000000)
 (l 0x10002001b001b0001001b001b001b001b0001001b001b058b4dcb45cb3dcb35cb454b354b410b3d0b390b350b388b348b364b360b358b001b0002001b001b0018001b00020002000200020001001800180018001800180001000100020002001b001b00020005000500050005000200010001000100010002001b00010001))
 (n (l 0x1b001b054b78ca988a11ca06ca00020001788a984a784a784a980a1e4a11ca084a080a07ca078a074a070a06ca068a064a060a05ca058a784a980a1e4a11ca084a080a07ca078a074a070a06ca068a064a060a05ca058a001b001b000100010001000100010018001b001b0001001b00020001000100010002000200010001)
 (l 0x1b0018001b001b001b001b001b001b001b0018001b001b0018001b001b0018001800180018001800180018001800180018001800180018001b001b001b001b001b001b001b001b001b001b001b001b001b001b001b001b001b001b001b001b00180018001b001b001b001b001b001800180018001800180000000000000000))))
 (n (n (n (l 0x18001800180018001800180018001800180018001800180018001800180018001800180018001800180018001800180018001800180018001b001b001b001b001b001b001b001b001b001b001b0018001b0018001b001b00180018001b001b001b001b001b001b001b001b001b001b001b001b001b001b001b001b001b001b)
 (l 0x1b001b001b001b001b001b001b001b001b001b001b001b001b001b001b001b001b00150014001b001b001b001b001b001b001b00180018001b001b001b001b001b001b001b001b001b001b001b001b001b001b001b001b001b001b001b001b0015001400150014001b001b001b001b001b001b001b001b0018001800180018))
 (n (l 0x1800180018001800180018001800180018001800180018001800180018001800180018001800180018001b001b001b001b001b001b001b001b001b001b001b001b001b001b001b001b001b001b001b001b001b001b001b001b001b001b001b001b001b001b0018001b001b001b001b001b001b001b001b001b001b001b001b)
 (l 0x1b001b001b001b001b001b001b001b001b001b001b001b001b001b001b001b001b001b001b001b001b001b001b001b001b001b001b001b001b001b001800180018001800180018001b001b001b001b001b001b001b001b001b001b001b001b001b001b001b001b001b001b001b001b001b001b001b001b001b001b001b001b)))
 (n (n (l 0x3cb038b034b030b02cb07cb050b04cb048b044b040b03cb038b034b030b0a4b0a0b09cb098b094b090b08cb088b084b080b02cb001b001b001b001b001b001b001b001b001b001b0000000000000000000000000000000000000000000000000000000000000000000000000000000000000000000000000000001b001b001b)
 (l 0x18001800180018001b001b001b001b001b001b001b001b001b001b001b001b001b001b001b001b001b001b001b001b001b001b001b001b0a4b0a0b09cb098b094b090b08cb088b084b080b07cb050b04cb048b044b040b03cb038b034b030b0a4b0a0b09cb098b094b090b08cb088b084b080b07cb050b04cb048b044b040b))
 (n (l 0x1b001b001b001b001b001b001b001b001b001b001b001b001b001b001b001b001b001b001b001b001b001b001b001b001b001b0018001b001b001b001b001b001b001b001b001b0018001b001b001b001b001b001b001b001b001b001b001b001b001b001b001b001b001b001b001b001b001b001b001b0018001800180018)
 (l 0x44b040b03cb038b034b030b07cb050b04cb048b044b040b03cb038b034b030b07cb050b04cb048b044b040b03cb038b034b030b00150014001500140015001400150014001500140015001400150014001b001b001b001b001b001b001b001b001b001b001b001b001b001b001b001b0018001b001b001b001b001b001b001b)))))
 (n (n (n (n (l 0x1800180018001800150014001500140015001400150014001500140018001800180018001800180018001800180018001800180018001800180018001800180018001800180018001800180018001800180015001400180018001800180018001b001b001b001b001b001b001b001b001b001b001b001b07cb050b04cb048b)
 (l 0x18001800180018001800180018001800180018001800180018001800180018001800180018001800180018001800180018001800180015001400150014001500140015001400150014001500140015001400150014001500140015001400150014001800180018001800180018001800180018001800180018001800180018))
 (n (l 0x1800180018001800180018001800180018001800180018001b001b001b001b001b001b001b001b001b001b001b001b001b001b001b001b001800180015001400180018001800180018001800180018001800180018001800180018001800180018001800180018001800180018001800180018001800180015001400150014)
 (l 0x1b0000001b001b001b001b001b001b001b001b001b001b001b001b001b001b001b001b001b001b001b001b001b001b001b001b00000000001b001b001b001b001b001b001b001b001b001b001b001b001b001b001b001b001b001b001b001b001b001b001b001800180018001800180018001b001b00180018001800180018)))
 (n (n (l 0x20002000200020002000200020002000000010001000100010001000100010001000100010001000100010001000100000002000200020002000200020002000200020002000200020002000200020002000200020002000200020002000200020002000200020002000200020002001b001b001b001b001b001b001b001b)
 (l 0x200010006000600060002000100020001001b001b001b001b001b001b000200020001000200010001000100040004000200020002000200020002000100020002000100020001000100010001000200010002000100020001000200020001000100010002000100020002000200020002000200020002))
 (n (l 0x6000000000000000000000000000000000000000000000000000000000017000400000000000000000000000000000005000500050005000500050005000500050005000500050005000500050005000000000002000000000000000000000002000000020002000200020002000200170017344b00170017001700170000)
 (l 0x5000500050005000500050005000500050005000500050005000500050005000500050005000500050005000500000005000500050005000500050005000000050005000500050005000500050000000500050005000500050005000500000005000500050005000500050005))))
 (n (n (n (l 0x1700170017001700130013001700170017001700170017001700170017001700040017001700170017001700150014001500140015001400150014001d001c00170017001d001c00170013001700170013001700170017001700170017001700170017001d001c0017001d001c001700170017001d001c001d001c00170017)
 (l 0x1b001b001b001b001b0000001b001b001b001b001b001b001b001b001b001b001b001b001b001b001b001b001b001b001b001b001b001b001b001b001b001b00000000000000000000000000000000000000000000000000000017001b001b0017001700170017001700170017001700170017001700170017001400170013))
 (n (l 0x1b001b001b001b001b001b001b001b001b001b001b001b001b001b001b001b001b001b001b001b001b001b000000000000000000000000000000000000000000000000001b001b001b001b001b001b001b001b001b001b001b001b001b001b001b001b)
 (l 0x15001400150014054a00050004001b001700170017000c001b001b0017000500040cca0a4a07ca001b001b000400040004000400040013000800080006000600060006078a074a070a06ca068a064a060a05ca058a001b0000000000000000001b001b001b001b001b001b001b001b001b001b001b001b0000000000000000)))
 (n (n (l 0x500050005000500050005000500050005000500050005000500040004001a001a000600060000000000050005000500050005000500050005000500050005000500050005000500050005000500050005000500050005001500150014001300150014001500140015001400150014001b001b001500140015001400150014)
 (l 0x5000500050005000500050005000500050005000500000005000500050005000500050005000500050005000500050005000500050005000500050005000500050005000500050005000500050000000000000000000000050004000400040017000500050005000500050005000500050005000500050005000500050005))
 (n (l 0x1b001b07cb078b074b070b06cb068b064b060b05cb058b0005000500050005000500050005000500050005000500050005000500050005000000000000000000000000000000000000000000000000001b001b001b001b001b001b001b001b001b001b064b060b05cb058b001b001b00000005000500050005000500050005)
 (l 0xecb0e8b0e4b001b001b001b001b001b001b001b001b001b001b001b001b001b001b001b001b001b0e0b0dcb0d8b0d4b0d0b0ccb0c8b0c4b0c0b0bcb0b8b0b4b0b0b0acb0a8b001b194b16cb144b11cb0f4b0ccb0a4b07cb001b001b001b001b001b001b001b001b001b001b001b001b001b001b001b001b001b001b001b001b)))))))

/-- Rows 192..255 of `propsIndex`. -/
def propsIndex_rows3 : Tree :=
 (n (n (n (n (n (n (l 0x500050005000500050005000500050005000500050005000500050005000505c50005000500050005000500050005000500050005000500050005000500050005000500050005000500050005000500050005000500050005000506850005000500050005000511cb118b114b110b10cb108b104b100b0fcb0f8b0f4b0f0b)
 (l 0x7885000500050005070500050005058500050005000500050005000500050005000500050005000500050005000500050005000507050005000500050005000500050005000500050005000500050005000500050005000500050005000500050005068500050005000500050005000500050005000500050005000500050005))
 (n (l 0x50005000500050005064500050685000500050005000500050005000505c5000500050005000500050005000500050005000500050005000500050785000500050005000500050005000500050005000500050005000500050005000500050005000500050005000500050005000500050005000500050005000506050005)
 (l 0x5000500050005784500050005000500050005000500050005000500050005000500050005000500050005000500050005000500050005000500050005000500050005000507c57985000500050005000500050005000500050005000500050005000500050005000500050005000500050005000500050005000500050005)))
 (n (n (l 0x5000500050005000500050005000500050005000500050005000500051e45000500050005000500050005000500050005000500050005000500050005000500050005068500050005000500050005000500050005000500050005000500050005000500050005000500050005000500050005000506050005000500050005)
 (l 0x5000506c500050745000505c5000500050005000500050005000500050005000500050005000500050005000500050005000500050005000500050005000500057a85000500050005000500050005000500050005000500050005000500050005000500050005000500050005000500050005000500050005000500057985))
 (n (l 0x500050005000500050005000500050005000500050605060506050605000500050005000500050005000500050005000500050005000500050005000500050005000500050f450005000500050005000500050cc50a457845000507c500050005000500050005000500050005000500050005000500050005000500050005)
 (l 0x5000500050005000500050005000500050005000500050005000500050005000500050585000500050005000500050005000505850005000500050005000500050005000500050005000500050005000500050005000506450005000500050005000500050005000500050005000500050005000500050005000500050005))))
 (n (n (n (l 0x50005000505c50005060505c505850005000500050005000500050005000500050005000500050a450785000500050005000500050005000500050005000500050005000500050005000500050005000500050005000500050005000500050005000500050005000505850005000500050005000500050005000500050005)
 (l 0x50005000500050005000500050005000500050005000500050005000500050005000500050745000500050005000500050005000500050005000500050005000507c5000500050005000500050005000500050005000500050005000500050005000500050005000500050005000500050005000500050005000500050005))
 (n (l 0x51e4500050005000500050005000500050005000500050005000500050005000500050005000500050005000500050005000500050005000500050005000500050785000500050005000500050005000500050005000500050005000500050005000500050005000500050005000500050005000500050005070500050005)
 (l 0x500050005000505c5000500050005000505c5000500050005000500050005000500050005000500050005000500050005000500050005000500050005788500050005000500050005000500050005000500050005000500050005000500050005000500050005000500050005000500050645000500050005000500050005)))
 (n (n (l 0x506c5000500050005000500050005000500050005000500050005000500050005000500050005000500050005000500050005000500050005000500050005000500057845000500050005000500050005000500050005000500050005000500050005000505c5000500050005000500050005000500050005000500050005)
 (l 0x500050005000500050545000500050005000500050005000500050005000500050005000500050005000500050005000500050005000500050005000506c50005000500050005000500050005000500050005000500050005000500050005000500050005000500050005000500050005000500051e450005000500050005))
 (n (l 0x1b001b001b001b00050005000500050005000500050005000500050004000500050005000500050005000500050005000500050005000500050005000500050005000500050005001b001b001b001b001b001b001b001b001b001b001b001b001b001b001b001b000000000000000500050005000500050005000500050005)
 (l 0x5000502890249020901c901890149010900c900890049000500050005000500050005000500050005000500050005000500050005000500170017001700040005000500050005000500050005000500050005000500050005000500050005000000000000000000000000000000000000001b001b001b)))))
 (n (n (n (n (l 0x6000500020001000200010002000100020001000200010002000100020001000600060004000400020001000200010002000100020001000200010002000100020001000200010002000100020001000200010002000100020001000200010000000000000000000000000000000000000000000000000000000000000000)
 (l 0x1a001a001a001a001a001a001a001a001a001a001a001a001a001a001a001a0000000000000000000000000000000000170017001700170017001700060006054a078a074a070a06ca068a064a060a05ca058a0005000500050005000500050004001700060006000600060006000600060006000600060017000700070007))
 (n (l 0x20001000200010002000100020001000200010002000100020001001a001a00050005000500050005000200040004000500020001000000000000000000000000000000000000000000000000000000000000000000000000000000000000000400040004000400040004000400040004001a001a001a001a001a001a001a)
 (l 0x20001000200010002000100020002000200010002000100050002000100020001001a001a000400020001000200010002000100020001000200010001000200010002000100020002000200020002000200020002000400020001000200010002000100020001000200010002000100020001000200010002000100020002)))
 (n (n (l 0x5000600050005000000000000000000000000000000000000000000000000000000000000000000000000000000000000000200010002000100010001000100020001000000000002000100020001000200010002000100020001000200010001000100010001000200010001000100010001000200010002000100020001)
 (l 0x5000500050005000000000000000000000000001b0019001b001b3fcb35cb37cb3ccb344b34cb0000000000000006001b001b001b001b000800060006000800080005000500050005000500050005000500050005000500050005000500050005000500050005000500050005000500060005000500050005000600050005))
 (n (l 0x500050008000800000000000000000000000002890249020901c901890149010900c90089004900170017000000000000000000000000000000000006000600080008000800080000000000000000000000000000000000170017001700170005000500050005000500050005000500050005000500050005000500050005)
 (l 0x5000500050005000500050006000600060006000600060006000600060006000600060006000600060006000600060008000800080008000800080008000800080008000800080005000500050005000500050005000500050005000500050005000500050005000500050005000500050005000500050005000500050005))))
 (n (n (n (l 0x80008000600060006000600060006000600060006000600060005000500050005000500050005000500050005000500050005000500050005000500050005001700170006000600060006000600060006000600050005000500050005000500060005000500170005001700170017)
 (l 0x800080006000600060006000800080006000500050005000500050005000500050005000500050005000500050005000500050005000500170017000000000000000002890249020901c901890149010900c90089004900040000001700170017001700170017001700170017001700170017001700080017000000000000))
 (n (l 0x6000600080008000600060008000800060006000600060006000600050005000500050005000500050005000500000005000500050005000502890249020901c901890149010900c90089004900050005000500050005000500050005000500040006000500050005000500050008000800060006)
 (l 0x80005001b001b001b0005000500050005000500050004000500050005000500050005000500050005000500050005000500050005000500170017001700170000000002890249020901c901890149010900c90089004900000000000800060005000500050005000500050005000500060005000500050000000000000000)))
 (n (n (l 0x5000000000000000000000000000000000000000000000000000000000000000000000000000000000000000000000000000500060005000600060005000500050005000500060006000500050006000600060005000600050005000500050005000500050005000500050005000500050005000500050005000500080006)
 (l 0x50005000500050005000500000000000500050005000500050005000000000005000500050005000500050000000000000000000000000000000000000000000600080004000400050017001700080008000600060008000500050005000500050005000500050005000500050017001700040005))
 (n (l 0x1a001a00040002000200020002000200020002000200020004000400040004001a00020002000200020002000200020002000200020002000200020002000200020002000200020002000200020002000200020002000200000005000500050005000500050005000000050005000500050005000500050000000000000000)
 (l 0x500050005000500000000000000000000000002890249020901c901890149010900c900890049000000000006000800170008000800060008000800060008000800050005000500020002000200020002000200020002000200020002000200020002000200020000000000000000))))))
 (n (n (n (n (n (l 0x5000500050005000500050005000500050005000500050005000500050005000500000000000000000005000500050005000500050005000000000000000000050005000500050005000500050005000500050005000500050005000500050005000500050005000500050005000500050005000500050000000000000000)
 (l 0x11001100110011001100110011001100110011001100110011001100110011001100110011001100110011001100110011001100110011001200120012001200120012001200120012001200120012001200120012001200120012001200120012001200120012001200120012001200120012001200120005000500050005))
 (n (l 0x50005000500050005000500050005000500050005000506c5000506c50005000500050005000500050005000500050005000500050005000500050005000500050005000505c5000500050005000507c500050005000500050005000500050605000500050005000500050005000500050005000500050011001100110011)
 (l 0x500050005000500050005000500050005000500180005000500050005000500050005000500050005000500050005000500050005000500000000000500050005000500050005000500050005000500050005000500050005000507c500050005000500050005000500050005000500050005000500050005000500050005)))
 (n (n (l 0x2000000000000000000000000000000000000000000000000000200020002000200020002000200050005000500050005000500050005000500050005000500050005000500050005000500050005000500050005000500050005000000050005000000050005000000050000000500050005000500050000000500050005)
 (l 0x500000000000000000000000000000000000000000000000000000000000000000000001a001a001a001a001a001a001a001a001a001a001a001a001a001a001a001a000500050005000500050005000500050005000500050005000500050005000500050005000500060005000000000000000000000002000200020002))
 (n (l 0x5000500050005000500050005000500050005000500050005000500050005000000000000000000000000000000000000000000000000000000000000000000140015000500050005000500050005000500050005000500050005000500050005000500050005000500050005000500050005000500050005000500050005)
 (l 0x6000600060006000600060006000600000000001b00190005000500050005000500050005000500050005000500050000000000000000000000000000000000000000000000000000000000000000000000000000000000000000000000000005000500050005000500050005000500050005000500050005000500000000))))
 (n (n (n (l 0x17001700170015001400170017001500140015001400150014001500140015001400150014001600160013001300170006000600060006000600060006000600060006000600060006000600060006000000000000000000000000001700150014001700170017001700170017001700060006000600060006000600060006)
 (l 0x5000500050005000500050005000500050005000500050005000500050005000500050005000500050005000000050005000500050005000000000000000000170017001900170000001800180018001300180017001700170015001400150014001500140013001700170017001700000017001700170016001600160017))
 (n (l 0x1b001b0018001800180018001b000000190019001b001a00180019001900000000000000050005000500000000000500050005000500050005000000000005000500050005000500050000000000050005000500050005000500000000001000000000000500050005000500050005000500050005)
 (l 0x2000200020002000200020002000200020002000200020002000200020002000200020002001a00170018001800180017001702890249020901c901890149010900c900890049001700170013001700180017001500140017001700170019001700170017000000000000001b001b00100010001000000000000000000000)))
 (n (n (l 0x4000400050005000500050005000500050005000500050005000500050005000500050005000500050005000500050005000500050005000500050005000500050005000500040005000500050005000500050005000500050005001700170015001400170015001400180015001800140002000200020002000200020002)
 (l 0x5000500050005000500000005000500000005000500050005000500050005000500050005000500050005000500050005000500050005000000050005000500050005000500050005000500050005000500050005000500050005000500050005000500050000000500050005000500050005000500050005000500050005))
 (n (l 0x804b784bb80bb00b000000000000000000000005000500050005000500050005000500050005000500050005000500050005000500050005000500050005000500050005000500050000000000050005000500050005000500050005000500050005000500050005000000000005000500050005000500050005000500050005)
 (l 0x7ca07ca07ca07caa80ba00b980b900b880b800b1e4b1bcb194b16cb144b11cb0f4b0ccb0a4b07cb078b074b070b06cb068b064b060b05cb058b0000000000000000001700170017001b001b001b001b001b001b001b001b001b000000000000b88bb08ba88ba08b988b908b888b808b788bb84bb04ba84ba04b984b904b884b)))))
 (n (n (n (n (l 0x988a984a980a11ca068a058a344a34ca000000000000001b001b001b001b001b001b001b001b001b001b001b001b001b0000001b001b001b34cb054b001b001b001b001b001b001b001b001b001b001b001b001b001b3ccb388b344b344b11ca068a984a784a980a980a980a980a980a880a1e4a11ca11ca11ca11ca0cca07ca)
 (l 0x1b001b001b001b001b001b001b001b0000000000000000000000000000000000000000000000000000000000000000000000000000000000000000000000000000000000000000000000000000001b068a05ca05ca05ca05ca058a058a058a07ca988a788a784a980a1e4a11ca07ca068a984a784a980a1e4a11ca07ca068a))
 (n (l 0x70b06cb068b064b060b05cb058b000600000000000000000000000000000000000000000000000000000000000000050005000500050005000500050005000500050005000500050005000500050005000000000006001b001b001b001b001b001b001b001b001b001b001b001b001b001b001b001b001b001b001b001b001b)
 (l 0x5000500050005000500051bca0005000500050005000500050005000500050005000500050005000500050005000500050005000500000000000000000000000000000000000011cb07cb068b058b0000000000000000b80bb00ba80ba00b980b900b880b800b1e4b1bcb194b16cb144b11cb0f4b0ccb0a4b07cb078b074b)))
 (n (n (l 0x5000500050005000500050005000500050005000500050005000500050005000500050005000500050005000500050000000000000000000000060006000600060006000500050005000500050005000500050005000500050005000500050005000500050005000500050005000500000000000000000000b80a00050005)
 (l 0x50005000500050005000500050005000200020002000200020002000200020002000200020002000200020002000200000000000000000000000000000000000000001e4a0a4a07ca05ca058a0017000500050005000500050005000500050000000000000000000500050005000500170000000500050005000500050005))
 (n (l 0x20002000200020002000200020002000100010001000100010001000100010001000100010001000100010001000100000000000000000000000002890249020901c901890149010900c900890049000000000005000500050005000500050005000500050005000500050005000500050005000500050005000500050005)
 (l 0x5000500050005000500050005000500020002000200020002000200020002000000000000000000010001000100010001000100010001000100010001000100010001000100010001000100010001000000000000000000020002000200020002000200020002000200020002000200020002000200020002000200020002))))
 (n (n (n (l 0x5000500050005000500050005000500050005000500050000000000000000000000000000000000000000000000000000000000000000001700000000000000000000000000000000000000000000000500050005000500050005000500050005000500050005000500050005000500000000000000000000000000000000)
 (l 0x788b784b1e4b0a4b07cb060b05cb058b00170000000500050005000500050005000500050005000500050005000500050005000500050005000500050005000500050005000000050000000000050005000500050005000500050000000000050000000000000005000500000005000500050005000500050005000500050005))
 (n (l 0x1e4b0a4b07cb068b064b064b060b05cb058b00000000000000000000000000000a4b07cb068b064b060b05cb058b001b001b00050005000500050005000500050005000500050005000500050005000500050005000500050005000500050005)
 (l 0x17000000000000060b05cb1e4b0a4b07cb058b00050005000500050005000500050005000500050005000500050005000500050005000500050005000500051e4b0a4b07cb068b058b000000000000000000000005000500000005000500050005000500050005000500050005000500050005000500050005000500050005)))
 (n (n (l 0x454b3ccb388b4ecb344b46cb348b34cb354b36cbb8cbb0cba8cba0cb98cb90cb88cb80cb78cbb88bb08ba88ba08b988b908b888b808b788bb84bb04ba84ba04b00170000000000000000000000050005000500050005000500050005000500050005000500050005000500050005000500050005000500050005000500050005)
 (l 0x984b904b884b804b784bb80bb00ba80ba00b980b900b880b800b1e4b0000000016cb144b11cb0f4b0ccb0a4b07cb078b074b070b06cb068b064b060b05cb058b00050005344b5ecb0000000000000000000500050005000500050005000500050005000500050005000500050005000500050005000500050005000500050005))
 (n (l 0x5000500050005000500050005000000050005000500000005000500050005000600060006000600000000000000000000000600060000000600060006000500000000000000000000000000000017001700170017001700170017001700170000000000000000000000000000344b784b1e4b0a4b07cb03cb038b034b030b)
 (l 0x5000500050005001711cb058b000500050005000500050005000500050005000500050005000500050005000500050005000500050005000500050005000500050005000500050006000000000000000000060006000600000000000500050005000500050005000500050005000500050005000500050005000500050005)))))))

/-- Rows 256..319 of `propsIndex`. -/
def propsIndex_rows4 : Tree :=
 (n (n (n (n (n (n (l 0x500050005000500000000000000000000000000000000000000170017001700170017001700171e4b0a4b07cb068b058b000000000000000000060006000500050005000500050a4b07cb058b0005000500050005000500050005000500050005000500050005000500050005000500050005000500050005000500050005)
 (l 0x500050005000500050005000500050005000500050005000500050005000500050005000500050005000500170017001700170017001700170000000000000005000500050005000500050005000500050005000500050005000500050005000500050005000500050005000500050005001b0005000500050005))
 (n (l 0x500050005000500050005000500050005000500050005000500050005000500050005784b1e4b0a4b07cb064b060b05cb058b000000000000000000000005000500050005000500050005000500050005000500050005000500050005000500050005784b1e4b0a4b07cb064b060b05cb058b)
 (l 0x50005000500050005000500050005000500000000000000000000000000000000000000000000000000000000000000001e4b0a4b07cb064b060b05cb058b00000000000000000000000000000000000000000000000000170017001700170000)))
 (n (n (l 0x20002000200020002000200020002000200020002000200020002000200020002000200020000000000000000000000000000000000000000000000000000000100010001000100010001000100010001000100010001000100010001000100010001000100000000000000000000000000000000)
 (l 0xa00b980b900b880b800b1e4b1bcb194b16cb144b11cb0f4b0ccb0a4b07cb050b04cb048b044b040b03cb038b034b030b00000000000000000000000002890249020901c901890149010900c9008900490000000000000000000000000000000000060006000600060005000500050005784b1e4b11cb07cb068b058b00000000))
 (n (l 0x500050005000500050005000500050005000500050005000500050005000500050005000500050005000500050005000000000000000000000000000000000000000000000000000000000005000500000000001300060006000000050005000500050005000500050005000500050000388b348b34cb344bb80bb00ba80b)
 (l 0x1700170017001700171e4b0a4b07cb058b00060006000600060006000600060006000600060006000500050005000500050005000500050005000500050005000500050005000500050005000000000000000000000000000000000005344b1e4b0ccb0a4b07cb068b064b060b05cb058b00050005000500050005))))
 (n (n (n (l 0x2890249020901c901890149010900c900890049784b1e4b1bcb194b16cb144b000000000000000000000000000000000000000000000000000000000000000000000000000000001e4b0a4b07cb064b060b05cb058b000500050005000500050000000000000000)
 (l 0x7cb050b04cb048b044b040b03cb038b034b030b000000000000000000170017001700170017001700170006000600060006000600060006000500050005000500050005000500050005000500050005000500050005000500050005000500050005000500050005000500050005000500050008000600080006000000000000))
 (n (l 0x50005000500050005000500050005000500050005000500000000001000000000000000000000000000000000000000000000001700170017001700100017001700060006000800080006000600060006000800080008000500050005000500050005000500050005000500050005000500050005000511cb0f4b0ccb0a4b)
 (l 0x1700170017001702890249020901c901890149010900c900890049000000060006000600060006000600060006000800060006000600060006000500050005000500050005000500000000000000000000000002890249020901c901890149010900c900890049000000000000000000000000000000050005000500050005)))
 (n (n (l 0x6000500050005000500050005000500050005000500050005000500050005000500050005000500050005000500050005000500050005000500050005000500050006000600060005000500050005000500050005000500050005000500050005000500050005000000000000000000000000000000000005000800080005)
 (l 0x8000500050005000500050005000500050005000500050005000500050005000500050005000500170017001700050017000502890249020901c901890149010900c9008900490006000800170006000600060006001700170017001700050005000500050008000000000000000000000000000000000000000500170017))
 (n (l 0x8000800060006000600080008000800050005000500050005000500050005000500050005000500000000000000000000000000000000000000000000784b1e4b1bcb194b16cb144b11cb0f4b0ccb0a4b07cb078b074b070b06cb068b064b060b05cb058b0000000800060006000600060006000600060006000600080008)
 (l 0x5000500050005000500050005000500050000000500050005000500000005000000050005000500050005000500050005000500050005000500050005000500050000000500050005000500050005000500050005000500050005000500050005000500050005000000060017001700170017001700170006000600080006)))))
 (n (n (n (n (l 0x20901c901890149010900c90089004900000000000000000000000600060006000600060006000600060008000800080005000500050005000500050005000500050005000500050005000500050005000000000000000000000000001700050005000500050005000500050005000500050000000500050005000500050005)
 (l 0x5000500050005000500000000000500050000000000050005000500050005000500050005000000080008000600060000000000000000000000000000000000000000000000060006000600060006000000000000000600060006000600060006000600000000000800080005000500000000000000000000000002890249))
 (n (l 0x5000500050000000000000000000000080000000000000000000000000005000000000008000800080000000000080008000000000008000800080008000600080008000500060006000000050005000500050005000000050005000000050005000500050005000500050000000500050005000500050005000500050005)
 (l 0x50006001700000017001702890249020901c901890149010900c900890049001700170017001700170005000500050005000600080006000600060008000800060006000600060006000600060006000800080008000500050005000500050005000500050005000500050005000500050005000500050005000500050005)))
 (n (n (l 0x6000800080008000800060008000600060006000600060006000800080008000500050005000500050005000500050005000500050005000500050005000500000000000000000000000000000000000000000000000000000000000000000000000000000000000000000000000000000000000000000000000000050005)
 (l 0x6000800060006000800080008000800000000000600060006000600080008000800050005000500050005000500050005000500050005000500050005000500000000000000000000000002890249020901c901890149010900c9008900490000000000000000000000000000000000050017000500050006000600080006))
 (n (l 0x6000800060008000800060006000600060006000600060006000800080008000500050005000500050005000500050005000500050005000500050005000500000000000600060005000500050005001700170017001700170017001700170017001700170017001700170017001700170017001700170017001700170006)
 (l 0x1700170017001700170017001700170017001700170017001700000000000000000000000002890249020901c901890149010900c9008900490000000000000000000000000000000000000000000000050017001700170006))))
 (n (n (n (l 0x5000600080006000600060006000600060008000800060008000600050005000500050005000500050005000500050005000000000000000000000000000000000000000000000000000000000000000000000000000000000000000002890249020901c901890149010900c900890049)
 (l 0x17000600060008000600060006000600060006000600060006000800080008000500050005000500050005000500050005000500050005001b0017001700170a4b07cb02890249020901c901890149010900c9008900490000000000000000000600060006000600060008000600060006000600080008))
 (n (l 0x2890249020901c901890149010900c900890049000000000000000000000000000000000000001700170017000600080005000800050000000000000000000000000000000000000000000000001bcb194b16cb144b11cb0f4b0ccb0a4b07cb02890249020901c901890149010900c900890049)
 (l 0x8000500170005000600050006000800060006000000000008000800000008000800080008000800080005000500050005000500050005000500050005000500050005000500050005000000050005000000050005000500050005000500050005000000000005000000000005000500050005000500050005)))
 (n (n (l 0x6000600060006000800080008000500050005000500050005000500050005000500050005000500050005000500050005000500050005000500050000000000050005000500050005000500050005000000000000000000000000000000000000000000000000000000000000000000000000000000000000000000000000)
 (l 0x8000600060006000600060006000500000000000000000000000000000000000600170017001700170017001700170017000600060006000600050008000600060006000600060006000500050005000500050005000500050005000500050005000500050005000500050005000500080008000800080006000600000000))
 (n (l 0x17001700170005000500050005000500050005000500050005000500050005000500050005000500050005000500050006000600060006000600060006000600060006000500050005000500050006000600060008)
 (l 0x20901c901890149010900c90089004900000000000000000000000000000000000000000017001700170017001700050017001700050017001700170006000600080006000600060006000600060006000600060006000600060006000500050005000500050005000500050005000500000000000000000000000000000000))))))
 (n (n (n (n (n (l 0x50005000500050005000500050005000500050005000500050005000500050005000500050005000500050000000500050005000500050005000500050005000500050005000500050005001700170000000000001e4b1bcb194b16cb144b11cb0f4b0ccb0a4b07cb078b074b070b06cb068b064b060b05cb058b02890249)
 (l 0x5000500050005000500050005000500050005000500050000000000000000000000000000000000000006000600080006000600080006000600060006000600060006000800000006000600060006000600060006000600060008000600060006000600060006000000060006000600060006000600060008000500050005))
 (n (l 0x500050005000500050000000500050000000500050005000500050005000500000000000000000000000002890249020901c901890149010900c90089004900000000000000000000000000000000000600050006000600060006000600060006000600060006000600060006000600060006000000000005000500050005)
 (l 0x500060008000600080008000000060006000000080008000800080008000500050005000500050005000500050005000500060000000600060000000600000000000000060006000600060006000600050005000500050005000500050005000500050005000500050005000500050005)))
 (n (n (l 0x5000000000000000000000000000000000000000000000000000000000000000000000000000000170017000800080006000600050005000500050005000500050005000500050005000500050005000500050005000500050005000500050005000500050000000500050000000500050005000500050005)
 (l 0x3ccb344b344b34cb350b3fcbc94b35cb364b37cb37cbc90bd04bcb4bcf0bca0bd00bcb0bcc0bcd0b00170000000000000000000000000000000000000000000000000000001b001b001b001b001b001b001b001b001b001b001b001b001b001b001b001b001b0019000000000000000000000000000000000000000000000000))
 (n (l 0x74a070a06ca068a064a078a074a070a06ca068a064a060a078a074a070a06ca068a064a060a05ca00000000000000000000000000000000000000000000001700170017001700170000078a074a070a06ca068a064a11ca0f4a388a348a344a34ca34ca354a34ca001900190019001b001b001b001b001b001b001b001bcd0b)
 (l 0x64a064a060a05ca058a06ca068a064a060a05ca078a078a078a078a074a074a070a070a070a06ca064a064a064a064a060a060a068a064a060a060a05ca058ac18ac08a068a064a060a060a05ca058a078a074a070a06ca068a064a060a060a05ca068a064a060a05ca058a078a074a070a06ca068a064a060a05ca058a078a))))
 (n (n (n (l 0x1000100010001000000005000500050005000500050005000500050005000500050005000500050000000000000000000000000000000000000000000000000000000000000000000000000000000000000000000000000000000000000000000500050005000535ca388a348a454a388a348a05ca058a060a05ca068a068a)
 (l 0x170017000000000000000002890249020901c901890149010900c90089004900000000000000000000000000000000000000000000000000000000000000000000000000000000000000000000000000000005000500050005000500050005000000000000000000000000000000100010001000100010))
 (n (l 0x500050005000500050005000500050005000500050005000500050005000500000000000000000000000000000000000000000017000600060006000600060000000000050005000500050005000500050005000500050005000500050005000000000000000000000000000000000000000000000000)
 (l 0x10900c9008900490000000000000000000000000000000000000000001b00170004000400040004001b001b001b001b0017001700170017001700060006000600060006000600060005000500050005000500050005000500050005000500050005000500050005000000000000000000000000000000000000000000000000)))
 (n (n (l 0xa0b09cb098b094b090b08cb088b084b080b07cb078b074b070b06cb068b064b060b05cb058b054b0005000500050000000000000000000000050005000500050005000500050005000500050005000500050005000500050005000500050005000500007a8b7a0b798b790b788b1e4b07cb000002890249020901c901890149)
 (l 0x8000800080008000800080008000800080008000800080008000800080008000800080008000800080008000800080008000800080008000800080008000800080008000800050006000000000000000000050005000500050005000500050005000500050005000000000000000000000017001700170017060b05cb058b))
 (n (l 0x5000500050005000500050005000500000000000000000000000000000000000000000000000000000000000800080000000000000000000000000000000000000000000000060004001700040004000400040004000400040004000400040004000400040004000400060006000600060000000000000000000000000000)
 (l 0x5000500050005000000000000000000000000000000000005000500050005000000000000000000000000000000000000000000000000000000050005000500000000000000000000000000000000000000000000000000000000000000000005000500050005000500050005000500050005000500050005000500050005)))))
 (n (n (n (n (l 0x10001000100010001700060006001b0000000000050005000500050005000500050005000500050000000000000000000000000000000500050005000500050005000500050005000500050005000500000000000000000000000500050005000500050005000500050005000500050005000500050005)
 (l 0x1b001b00060006000600080008001b001b001b001b001b001b001b001b001b001b001b001b001b001b001b001b001b001b001b001b001b001b001b001b00000000001b001b001b001b001b001b001b000000000000000000000000000000000000000000000000000000000000000000000000000000000000000000000000))
 (n (l 0x1b001b001b001b001b001b0006000600060006001b001b001b001b001b001b001b001b001b001b001b001b001b001b001b001b001b001b001b001b001b001b0006000600060006000600060006001b001b0006000600060006000600060006000600100010001000100010001000100010000800080008000800080008001b)
 (l 0x1b000600060006001b001b00000000000000000000000000000000000000000000000000000000000000000000000000000000000000000000001b001b001b001b001b001b001b001b001b001b001b001b001b)))
 (n (n (l 0x68b058b068b064b060b05cb058b1bcb194b16cb144b11cb0f4b0ccb0a4b07cb078b074b070b06cb068b064b060b05cb058b0000000000000000000000000000000000000000000000000a0b09cb098b094b090b08cb088b084b080b07cb078b074b070b06cb068b064b060b05cb058b054b0000000000000000)
 (l 0x200020001000100010001000100010001000100010001000100010001000100010001000100010001000100010001000100010001000102890249020901c901890149010900c90089004902890249020901c901890149010900c90089004902890249020901c901890149010900c900890049028902490000000000000000))
 (n (l 0x1000100010001000100010001000100010001000100010002000200020002000200020002000200020002000000020002000200020002000200020001000100010001000100010001000100010001000100010001000100020002000200020002000200020002000200020002000200020002000200020002000200020002)
 (l 0x1000100010001000100010000000100010001000100000000000100010000000000010000000000010001000000010002000200020002000200020002000200020002000200020002000200020002000200020002000200020002000200020002000200010001000100010001000100010001000100010001000100010001))))
 (n (n (n (l 0x1000100010001000100010001000000000001000100010001000000010001000200020002000200010001000100010001000100010001000100010001000100010001000100010002000200020002000200020002000200020002000200000002000200020002000200020002000000020000000200020002000200010001)
 (l 0x2000200000001000100010001000100010001000000000000000100000001000100010001000100000001000100010001000000010001000200020002000200020002000200020002000200020002000200020002000200020002000200020002000200020002000200020000000100010001000100010001000100000001))
 (n (l 0x1000100010001000200020002000200020002000200020002000200020002000200020002000200020002000200020002000200020002000200020001000100010001000100010001000100010001000100010001000100010001000100010001000100010001000200020002000200020002000200020002000200020002)
 (l 0x2000200020002000200020002000200020002000200020002000200020002000200020018000100010001000100010001000100010001000100010001000100010001000100010001000100010001000100010001000100000000000200020002000200020002000100010001000100010001000100010001000100010001)))
 (n (n (l 0x2000200180002000200020002000200020002000200020002000200020002000200020002000200020002000200020018000100010001000100010001000100010001000100010001000100010001000100010001000100010001000100010001000100020002000200020002000200180002000200020002000200020002)
 (l 0x600060006000600060006000600060006000600060000020901c901890149010900c90089004902890249020901c901890149010900c9008900490000000000020001000200020002000200020002001800020002000200010001000100010001000100010001000100010001000100010001000100010002000200020002))
 (n (l 0x1b001b001b00060006000600060006000600060006000600060006000600060006001b001b001b001b0006000600060006000600060006000600060006000600060006000600060006000600060006000600060006000600000000000000000000000000000000000000000000000000000000000000000006000600060006)
 (l 0x600060006000600060006000600060006000600060006000600060006000600000006000600060006000600060006000600000000000000000000000000000000000000000000000000000000000000170017001700170017001b001b0006001b001b001b001b001b001b001b001b001b001b0006001b001b001b001b001b)))))))

/-- Rows 320..383 of `propsIndex`. -/
def propsIndex_rows5 : Tree :=
 (n (n (n (n (n (n (l 0x1b0005000000000000000002890249020901c901890149010900c9008900490000000000000000000000000000000000000000000000000000000000000000000000000000000000000006000600060006000600000006000600000006000600060006000600060006000000000006)
 (l 0x20901c901890149010900c90089004900060006000600060005000500050005000500050005000500050005000500050000000000040004000400040004000400040006000600060006000600060006000000000000000500050005000500050005000500050005000500050005000500000000000000000000000000000000))
 (n (l 0x20901c901890149010900c90089004900000000000000000004000600060006000600060006000600020002000200020000000000000000000000000000000000000006000600060006000600060006078b074b070b06cb068b064b060b05cb058b000000000005000500050005000500190000000000000000000002890249)
 (l 0x70b06cb068b064b060b05cb058b000000000000000000000000000000000000000000000000000000000000000000000002000200020002000200020002000200020002000200020002000200020002000200020002000200020002000200020002000200020002000200020001000100170017000000000000000002890249)))
 (n (n (l 0x888b808b788bb84bb04ba84ba04b984b904b884b804b784bb80bb00ba80ba00b980b900b880b800b1e4b1bcb194b16cb0000000000000000000000000000000000000000000078cb788b05cb058b00193ccb344b34cb001b078b074b070b06cb068b064b060b05cb058b814b794b78cb144b11cb0f4b0ccb0a4b07cb078b074b)
 (l 0x980b900b880b800b1e4b1bcb194b16cb144b11cb0f4b0ccb0a4b07cb078b074b070b06cb068b064b060b05cb058b000000000000354b344b788b804ba00b900b07cb078b074b070b06cb068b064b060b05cb001bb88bb08ba88ba08b988b908b888b808b788bb84bb04ba84ba04b984b80cb78cbb88bb08ba88ba08b988b908b))
 (n (l 0x50005000500050005000500050005000500050005000500050005000500050005000500050000000500050005000500000000000000000000000000000000000000000000000000000000001800180000000000000000000000000000000000000000000000000000000000000000904b884b804b784bb80bb00ba80ba00b)
 (l 0x5000000000005000000050005000000050005000500000005000000050000000500000000000000000005000000000000000000000000000500000005000000050005000500050000000500050005000500050005000500050005000500000005000000000005000000050005000000050005000500050005000500050005))))
 (n (n (n (l 0x5000500050005000500050005000500050005000500050005000000050005000500050005000500050005000500050000000500000005000500050005000000050005000500050000000500050005000500050005000500000005000500050005000000000005000000050005000000050000000500000005000000050000)
 (l 0x1b001b001b001b001b001b001b001b0000000000000000001b001b001b001b001b001b001b001b001b001b001b001b0000000000000000000500050005000500050005000500050005000500050005000500050005000500050000000500050005000500050000000500050005000000000000000000000005000500050005))
 (n (l 0x1b001b001b001b001b001b001b054b054b050b04cb048b044b040b03cb038b034b030b02cb02cb001b001b001b001b001b001b001b001b001b001b001b001b001b001b001b0000001b001b001b001b001b001b001b001b001b001b001b001b001b001b001b00000000001b001b001b001b001b001b001b001b001b001b001b)
 (l 0x1b001b001b001b0000000000000000000000000000000000000000000000000000001b001b001b001b001b001b001b001b001b001b001b001b001b001b001b001b001b001b001b001b001b001b001b001b001b001b001b001b001b000000000000000000000000001b001b001b001b001b001b001b001b001b001b001b001b)))
 (n (n (l 0x1b001b001b001b00000000000000000000000000000000000000000000000000000000001b001b0000000000000000000000000000001b001b001b001b001b001b001b001b001b0000000000000000001b001b001b001b001b001b001b001b001b001b001b001b001b001b001b001b001b001b001b001b001b001b001b001b)
 (l 0x1b001b001b001b001a001a001a001a001a001b001b001b001b001b001b001b001b001b001b001b001b001b001b001b001b001b001b001b001b001b001b001b001b001b001b001b00000000000000000000000000000000000000000000000000000000000000000000000000000000000000000000000000000000001b001b))
 (n (l 0x1b001b001b001b000000000000001b001b001b001b001b001b001b001b001b001b001b001b001b000000000000001b001b001b001b001b001b001b001b001b001b001b001b001b00000000000000000000000000000000001b001b001b001b001b001b001b001b001b001b001b001b001b001b001b001b001b001b001b001b)
 (l 0x1b001b001b001b00000000000000000000000000000000000000000000000000000000000000000000000000000000001b001b001b001b001b001b001b001b001b001b001b001b0000000000000000000000000000001b001b001b001b001b001b001b001b001b001b001b001b001b001b001b001b001b001b001b001b001b)))))
 (n (n (n (n (l 0x1b001b001b001b001b001b001b001b001b001b001b001b001b001b001b001b001b001b00000000000000000000000000000000001b001b001b001b001b001b001b001b000000000000000000000000001b001b001b001b001b001b001b001b001b001b00000000000000000000000000000000001b001b001b001b)
 (l 0x1b001b001b001b001b001b001b0000001b001b001b001b001b001b001b001b001b001b001b001b001b001b0000001b001b001b001b001b001b001b001b001b001b001b001b001b001b001b001b001b001b001b001b001b001b001b001b001b00000000000000000000000000000000000000000000000000000000001b001b))
 (n (l 0x1b001b001b001b001b001b001b001b001b001b001b001b001b001b001b001b000000000000000000000000000000000000001b001b001b001b001b001b001b00000000000000000000001b001b001b000000000000001b001b001b001b001b00000000001b001b001b001b001b001b001b001b001b001b001b001b001b001b)
 (l 0x1b001b001b001b001b001b001b001b001b001b001b001b001b001b001b001b001b001b001b000000000000000000000000000000000000001b001b001b001b001b001b001b0000000000000000000000000000000000000000000000000000001b001b001b001b001b001b001b0000000000000000000000000000001b)))
 (n (n (l 0x5000500050005000500050005000500050005000500050005000500050005000500050005064500050005000500050005000500050005000500050005000500050005000500050005000500050005000500050005000500050005000500050005000507050005001b001b001b001b001b001b001b001b001b001b001b001b)
 (l 0x5000500050005000500050005000500050005000500050005000500050005000500050005000500050005068500050005000500050005000500050005000500050005000500050005000500050005000500050005000500050005000500050005000500050005000506450005000500050005000500050005000500050005))
 (n (l 0x500050005000500050005000500050005000500050005000506c500050005000500050005000500050005000500050005000500050f450005000500050005000500050005000500050005000500050005000500050f45000500050005000500050005000500050cc500050005000500050005000500050005000500050005)
 (l 0x5000500050605000500050005000500050005000500050005000500050005000500050005000500050005000500050005000500050005000500050605000500050005000500050005000500050005000500050005000500050005000500050005000500050005000500050005000500050005060500050005000500050005))))
 (n (n (n (l 0x5000500050005000500050005000500050005000500050005000500050005000500050005000500050005064500050005000500050005000500050005000500050005000500050605000500050005000500050005000500050005000500050005000500050005000500050005000500050005000500050005000500050005)
 (l 0x5000500050005000500050005000500050005000500050005000500050785000500050005000500050005000500050005000500050005000500050005000500000000000000000000000000000000000000000000000000000000000000000000000000000000000000000000000000000000000000000000000000000005))
 (n (l 0x10000000100010001000100010001000100010001000100010001000100010001000100010001000100010001000100010001000100010001000100010001000100010)
 (l 0x110011001100110011001100110011001100110011001100110011001100110011001100110011001100110011001100110011001100110011001100000000000000000000000000000000000000000000000000000000000000000006000600060006000600060006000600060006000600060006000600060006)))
 (n (n (l 0x0)
 (l 0x0))
 (n (l 0x0)
 (l 0x0))))))
 (n (n (n (n (n (l 0x0)
 (l 0x0))
 (n (l 0x0)
 (l 0x0)))
 (n (n (l 0x0)
 (l 0x0))
 (n (l 0x0)
 (l 0x0))))
 (n (n (n (l 0x0)
 (l 0x0))
 (n (l 0x0)
 (l 0x0)))
 (n (n (l 0x0)
 (l 0x0))
 (n (l 0x0)
 (l 0x0)))))
 (n (n (n (n (l 0x0)
 (l 0x0))
 (n (l 0x0)
 (l 0x0)))
 (n (n (l 0x0)
 (l 0x0))
 (n (l 0x0)
 (l 0x0))))
 (n (n (n (l 0x0)
 (l 0x0))
 (n (l 0x0)
 (l 0x0)))
 (n (n (l 0x0)
 (l 0x0))
 (n (l 0x0)
 (l 0x0)))))))

/-- Rows 384..447 of `propsIndex`. -/
def propsIndex_rows6 : Tree :=
 (n (n (n (n (n (n (l 0x0)
 (l 0x0))
 (n (l 0x0)
 (l 0x0)))
 (n (n (l 0x0)
 (l 0x0))
 (n (l 0x0)
 (l 0x0))))
 (n (n (n (l 0x0)
 (l 0x0))
 (n (l 0x0)
 (l 0x0)))
 (n (n (l 0x0)
 (l 0x0))
 (n (l 0x0)
 (l 0x0)))))
 (n (n (n (n (l 0x0)
 (l 0x0))
 (n (l 0x0)
 (l 0x0)))
 (n (n (l 0x0)
 (l 0x0))
 (n (l 0x0)
 (l 0x0))))
 (n (n (n (l 0x0)
 (l 0x0))
 (n (l 0x0)
 (l 0x0)))
 (n (n (l 0x0)
 (l 0x0))
 (n (l 0x0)
 (l 0x0))))))
 (n (n (n (n (n (l 0x0)
 (l 0x0))
 (n (l 0x0)
 (l 0x0)))
 (n (n (l 0x0)
 (l 0x0))
 (n (l 0x0)
 (l 0x0))))
 (n (n (n (l 0x0)
 (l 0x0))
 (n (l 0x0)
 (l 0x0)))
 (n (n (l 0x0)
 (l 0x0))
 (n (l 0x0)
 (l 0x0)))))
 (n (n (n (n (l 0x0)
 (l 0x0))
 (n (l 0x0)
 (l 0x0)))
 (n (n (l 0x0)
 (l 0x0))
 (n (l 0x0)
 (l 0x0))))
 (n (n (n (l 0x0)
 (l 0x0))
 (n (l 0x0)
 (l 0x0)))
 (n (n (l 0x0)
 (l 0x0))
 (n (l 0x0)
 (l 0x0)))))))

/-- Rows 448..511 of `propsIndex`. -/
def propsIndex_rows7 : Tree :=
 (n (n (n (n (n (n (l 0x0)
 (l 0x0))
 (n (l 0x0)
 (l 0x0)))
 (n (n (l 0x0)
 (l 0x0))
 (n (l 0x0)
 (l 0x0))))
 (n (n (n (l 0x0)
 (l 0x0))
 (n (l 0x0)
 (l 0x0)))
 (n (n (l 0x0)
 (l 0x0))
 (n (l 0x0)
 (l 0x0)))))
 (n (n (n (n (l 0x0)
 (l 0x0))
 (n (l 0x0)
 (l 0x0)))
 (n (n (l 0x0)
 (l 0x0))
 (n (l 0x0)
 (l 0x0))))
 (n (n (n (l 0x0)
 (l 0x0))
 (n (l 0x0)
 (l 0x0)))
 (n (n (l 0x0)
 (l 0x0))
 (n (l 0x0)
 (l 0x0))))))
 (n (n (n (n (n (l 0x0)
 (l 0x0))
 (n (l 0x0)
 (l 0x0)))
 (n (n (l 0x0)
 (l 0x0))
 (n (l 0x0)
 (l 0x0))))
 (n (n (n (l 0x0)
 (l 0x0))
 (n (l 0x0)
 (l 0x0)))
 (n (n (l 0x0)
 (l 0x0))
 (n (l 0x0)
 (l 0x0)))))
 (n (n (n (n (l 0x0)
 (l 0x0))
 (n (l 0x0)
 (l 0x0)))
 (n (n (l 0x0)
 (l 0x0))
 (n (l 0x0)
 (l 0x0))))
 (n (n (n (l 0x0)
 (l 0x0))
 (n (l 0x0)
 (l 0x0)))
 (n (n (l 0x0)
 (l 0x0))
 (n (l 0x0)
 (l 0x0)))))))

/-- UnicodeData/CharPropsData.py:7-1401 `propsTrie_index`: 22276 entries of 16 bits. -/
def propsIndex : Table :=
 { size := 22276, bits := 16, depth := 9, rows := (n (n (n propsIndex_rows0 propsIndex_rows1) (n propsIndex_rows2 propsIndex_rows3)) (n (n propsIndex_rows4 propsIndex_rows5) (n propsIndex_rows6 propsIndex_rows7))) }

/-- UnicodeData/CharPropsData.py:1403 `propsTrie_index_length`. -/
def propsIndexLength : Nat := 0x11b4

/-- UnicodeData/CharPropsData.py:1404 `propsTrie_index_2_null_offset`. -/
def propsIndex2NullOffset : Nat := 0xa40

/-- UnicodeData/CharPropsData.py:1405 `propsTrie_data_null_offset`. -/
def propsDataNullOffset : Nat := 0x1234

/-- UnicodeData/CharPropsData.py:1406 `propsTrie_high_start`. -/
def propsHighStart : Nat := 0x110000

/-- UnicodeData/CharPropsData.py:1407 `propsTrie_high_value_index`. -/
def propsHighValueIndex : Nat := 0x5700

/-- Rows 0..63 of `propsVectorsIndex`. -/
def propsVectorsIndex_rows0 : Tree :=
 (n (n (n (n (n (n (l 0x6e406dc06d406cc06c406bc06b406ac06a4069c0694068c0685067d0675066d0665065d0655064d0646063e0639063106290621061906110609060105fa05f205ea05e205da05d205ca05c205ba05b205aa05a2059a0592058f0587057f0577057005680560055805500548054005380530052805200518050004f804f004e8)
 (l 0x931092a0922091a0912090a1634162c090208fa08f208ea08e208db08d308cf08c708bf08b708b008a808a013180898089008880880087a0872086a0862085c0854084d0845083d0835082d0825081f0817080f0807080107f907f107e907e307db07d307cb07c5130812f8131013001bf20ea40e9c050806ec0e350d5e1a38))
 (n (l 0x992098a16ca16d20b710b690b610b59098216c216c2097a16b116ba16ba16ba16ba16ba16ba16ba16ba16ba16ba16ba16ba16ba16ba16ba16ba16ba16ba16b9097216a916a90c39096a0962169c095c16a10956094e0949169c0941169c169a133413321330133d133c157415721572132009391328197b1973168a16821692)
 (l 0x9d609ce09c6135809be09b6135809b2135013451345134813451345134513450c1918b918f118f918591861185118690d8e0f27119610f619c70cfa0cf219bf0e3d1b1119b719af0cb00ca8193e19390f480f470d860d7e0d760d6e1a480c0918490c730c6c18e10b8e0b890b810b790d661a4009aa16da09a216e416dc099a)))
 (n (n (l 0x17f917f21492146b148a1482147a14731ad91983184117ea1463145b1453144b1443143b1433142b141b1423153d153d14131535152d152a15250a0e0a06140b192917e217dc16ec1403140113fe13f613ee13e613de13d713cf13c713bf13b713af13a713a009fe139813901388138009f609ee137809e609de137013601368)
 (l 0x6f00a261704170417041704170417040a1e16fc16fc0a160c880c831993190119cf0c310c310c290c9819110c4118c90c2118c118c118c119460c4d0c4918d11d151c3e1c360b9c0b96198b193118711828183118281828182b182818281824181c18151813180c180118011804180116f416f416f416f416f416f416f416f4))
 (n (l 0x17141714171417141714171417141714171417141714171417141714171417141714171417141714171417141714171417141714171417141714171417141714162415d015cf15cf15c715da15d815d815bf15bb161c161515b3160d16060a500c111921170c0a4815ab15a40a430a3e159c1594158c0a3615840a2e157c155a)
 (l 0x1714171417141714171417141714171417141714171417141714171417141714171417141714171417141714171417141714171417141714171417141714171417141714171417141714171417141714171417141714171417141714171417141714171417141714171417141714171417141714171417141714171417141714))))
 (n (n (n (l 0x1714171417141714171417141714171417141714171417141714171417141714171417141714171417141714171417141714171417141714171417141714171417141714171417141714171417141714171417141714171417141714171417141714171417141714171417141714171417141714171417141714171417141714)
 (l 0x15e215e215e215e215e215e215e215e215e215e215e215e215e215e215e215e2187918791717171417141714171417141714171417141714171417141714171417141714171417141714171417141714171417141714171417141714171417141714171417141714171417141714171417141714171417141714171417141714))
 (n (l 0x15e215e215e215e215e215e215e215e215e215e215e215e215e215e215e215e215e215e215e215e215e215e215e215e215e215e215e215e215e215e215e215e215e215e215e215e215e215e215e215e215e215e215e215e215e215e215e215e215e215e215e215e215e215e215e215e215e215e215e215e215e215e215e215e2)
 (l 0x15e215e215e215e215e215e215e215e215e215e215e215e215e215e215e215e215e215e215e215e215e215e215e215e215e215e215e215e215e215e215e215e215e215e215e215e215e215e215e215e215e215e215e215e215e215e215e215e215e215e215e215e215e215e215e215e215e215e215e215e215e215e215e215e2)))
 (n (n (l 0x15e215e215e215e215e215e215e215e215e215e215e215e215e215e215e215e215e215e215e215e215e215e215e215e215e215e215e215e215e215e215e215e215e215e215e215e215e215e215e215e215e215e215e215e215e215e215e215e215e215e215e215e215e215e215e215e215e215e215e215e215e215e215e215e2)
 (l 0x15e215e215e215e215e215e215e215e215e215e215e215e215e215e215e215e215e215e215e215e215e215e215e215e215e215e215e215e215e215e215e215e215e215e215e215e215e215e215e215e215e215e215e215e215e215e215e215e215e215e215e215e215e215e215e215e215e215e215e215e215e215e215e215e2))
 (n (l 0x15e215e215e215e215e215e215e215e215e215e215e215e215e215e215e215e215e215e215e215e215e215e215e215e215e215e215e215e215e215e215e215e215e215e215e215e215e215e215e215e215e215e215e215e215e215e215e215e215e215e215e215e215e215e215e215e215e215e215e215e215e215e215e215e2)
 (l 0x15e215e215e215e215e215e215e215e215e215e215e215e215e215e215e215e215e215e215e215e215e215e215e215e215e215e215e215e215e215e215e215e215e215e215e215e215e215e215e215e215e215e215e215e215e215e215e215e215e215e215e215e215e215e215e215e215e215e215e215e215e215e215e215e2)))))
 (n (n (n (n (l 0x15e215e215e215e215e215e215e215e215e215e215e215e215e215e215e215e215e215e215e215e215e215e215e215e215e215e215e215e215e215e215e215e215e215e215e215e215e215e215e215e215e215e215e215e215e215e215e215e215e215e215e215e215e215e215e215e215e215e215e215e215e215e215e215e2)
 (l 0x15e215e215e215e215e215e215e215e215e215e215e215e215e215e215e215e215e215e215e215e215e215e215e215e215e215e215e215e215e215e215e215e215e215e215e215e215e215e215e215e215e215e215e215e215e215e215e215e215e215e215e215e215e215e215e215e215e215e215e215e215e215e215e215e2))
 (n (l 0x15e215e215e215e215e215e215e215e215e215e215e215e215e215e215e215e215e215e215e215e215e215e215e215e215e215e215e215e215e215e215e215e215e215e215e215e215e215e215e215e215e215e215e215e215e215e215e215e215e215e215e215e215e215e215e215e215e215e215e215e215e215e215e215e2)
 (l 0x12b51a3015e915e215e215e215e215e215e215e215e215e215e215e215e215e215e215e215e215e215e215e215e215e215e215e215e215e215e215e215e215e215e215e215e215e215e215e215e215e215e215e215e215e215e215e215e215e215e215e215e215e215e215e215e215e215e215e215e215e215e215e215e215e2)))
 (n (n (l 0xcbb0cb81b09199b19a719a3194e18d90d961a581a5819ed19e319eb0d0219d719db19db19db19db19db19db19db19db1a500a60172d0a5817251725172517251725172517251725172517251725172517251725172517251725172517251725172517251725172517251725172517251725172517251725172517251725171f)
 (l 0x1677167616751674167a167916781677167616751674167a167916781677167616751674167a167916781677167616751674167a1679167816771676167516740db61a8c1d321d320fa81c850e4d0e450ef70dae1a7c1a841a740d220d1a1a100ff00da61a6c1a680d9e0d121a001a081a600d0a19f819f50cc319560c901909))
 (n (l 0x16781677167616751674167a167916781677167616751674167a167916781677167616751674167a167916781677167616751674167a167916781677167616751674167a167916781677167616751674167a167916781677167616751674167a167916781677167616751674167a167916781677167616751674167a16791678)
 (l 0x167916781677167616751674167a167916781677167616751674167a167916781677167616751674167a167916781677167616751674167a167916781677167616751674167a167916781677167616751674167a167916781677167616751674167a167916781677167616751674167a167916781677167616751674167a1679))))
 (n (n (n (l 0x167a167916781677167616751674167a167916781677167616751674167a167916781677167616751674167a167916781677167616751674167a167916781677167616751674167a167916781677167616751674167a167916781677167616751674167a167916781677167616751674167a167916781677167616751674167a)
 (l 0x1674167a167916781677167616751674167a167916781677167616751674167a167916781677167616751674167a167916781677167616751674167a167916781677167616751674167a167916781677167616751674167a167916781677167616751674167a167916781677167616751674167a167916781677167616751674))
 (n (l 0xdc10dbe0a68167916781677167616751674167a167916781677167616751674167a167916781677167616751674167a167916781677167616751674167a167916781677167616751674167a167916781677167616751674167a167916781677167616751674167a167916781677167616751674167a16791678167716761675)
 (l 0x164c164c164c164c164c164c164c164c164c164c164c164c164c164c164c164c164c164c164c164c164c164c164c164c164c164c164c164c164c164c164c164c05080508050805080508050805080508050805080508050805080508050805080508050805080508050805080508050805080508050805080508050805080508)))
 (n (n (l 0x1545154515451545154515451545154515451545154515451545154515451545154515451545154515451545154515451545154515451545154515451545154515451545154515451545154515451545154515451545154515451545154515451545154515451545154515451545154515451545154515451545154515451545)
 (l 0x1545154515451545154515451545154515451545154515451545154515451545154515451545154515451545154515451545154515451545154515451545154515451545154515451545154515451545154515451545154515451545154515451545154515451545154515451545154515451545154515451545154515451545))
 (n (l 0x1545154515451545154515451545154515451545154515451545154515451545154515451545154515451545154515451545154515451545154515451545154515451545154515451545154515451545154515451545154515451545154515451545154515451545154515451545154515451545154515451545154515451545)
 (l 0xac40adc0ad41552154d156a15620acc0abc151d151815120ab40aac150a0ca00aa40aa014e90a9814e10a90149a14d9150214f214f114d114aa14a214fa14fa14c90a8814c114b914b20a800a780a7012c812c11919191912bd183915fe15f615f115f115f115f115f115f115f115f115451545154515451545154515451545))))))
 (n (n (n (n (n (l 0x1b701b301af01ab01a701a3019f419b41974193418f818c418841844180417c817881748170816c816881648161c15dc15a01560152014e014a01460142014201644164416441644163c163c163c163c163c163c163c163c163c163c163c163c163c163c163c163c163c163c163c163c163c163c163c163c163c163c163c163c)
 (l 0xff70fb70f97131d131d131d10dd129d10d21092125d0f57121d121d121d121d121d121d121d121d121d121d121d121d121d121d121d121d121d121d121d121d0da50e350d2d0ced0cad0c6d0a400a400c2d0f170a400a400a400a400c000ed712dd12dd0bc00a400a400a400a400e970a400e750a400b800b400b000ac00a80))
 (n (l 0xd650a400a400a400a400a400a400a400a400a400a400a400a400a400a400a400a400a400a400a400a400a400a400a400a400a400a400a400a400a400a400a4010520fb70fb70fb70fb70fb70fb70fb70fb70fb70fb70fb70fb70fb70fb70fb70fb70fb70fb70fb70fb70fb70fb70fb70fb70fb70fb70fb70fb71037135d135d)
 (l 0xd650a400a400a400a400a400a400a400a400a400a400a400a400a400a400a400a400a400a400a400a400a400a400a400a400a400a400a400a400a400a400a400d650a400a400a400a400a400a400a400a400a400a400a400a400a400a400a400a400a400a400a400a400a400a400a400a400a400a400a400a400a400a400a40)))
 (n (n (l 0xd650a400a400a400a400a400a400a400a400a400a400a400a400a400a400a400a400a400a400a400a400a400a400a400a400a400a400a400a400a400a400a400d650a400a400a400a400a400a400a400a400a400a400a400a400a400a400a400a400a400a400a400a400a400a400a400a400a400a400a400a400a400a400a40)
 (l 0xd650a400a400a400a400a400a400a400a400a400a400a400a400a400a400a400a400a400a400a400a400a400a400a400a400a400a400a400a400a400a400a400d650a400a400a400a400a400a400a400a400a400a400a400a400a400a400a400a400a400a400a400a400a400a400a400a400a400a400a400a400a400a400a40))
 (n (l 0xd650a400a400a400a400a400a400a400a400a400a400a400a400a400a400a400a400a400a400a400a400a400a400a400a400a400a400a400a400a400a400a400d650a400a400a400a400a400a400a400a400a400a400a400a400a400a400a400a400a400a400a400a400a400a400a400a400a400a400a400a400a400a400a40)
 (l 0xd650a400a400a400a400a400a400a400a400a400a400a400a400a400a400a400a400a400a400a400a400a400a400a400a400a400a400a400a400a400df50de50d650a400a400a400a400a400a400a400a400a400a400a400a400a400a400a400a400a400a400a400a400a400a400a400a400a400a400a400a400a400a400a40))))
 (n (n (n (l 0x115d11dd11dd11dd11dd11dd11dd11dd11dd11dd11dd11dd11dd11dd11dd11dd11dd11dd11dd11dd11dd11dd11dd11dd11dd11dd11dd11dd11dd11dd11dd11dd111d119d119d119d119d119d119d119d119d119d119d119d119d119d119d119d119d119d119d119d119d119d119d119d119d119d119d119d119d119d119d119d)
 (l 0x508050805080508050805080508050805080508050805080508050805080508050805080508050805080508050805080508050805080508050805080508050805080508050805080508050805080508050805080508050805080508050805080508050805080508050805080508050805080508050805080508050805080508))
 (n (l 0x5080508050805080fc00fb80fb01c8d1c8d1c8d1c8d1c8d1c8d1c8d1c8d1c8d050805080508050806f81c5d0f5d1c6d113a11340be60bde18891742173d174a05080c7b18e90bd610000aea0ae417350f3f0d421a180d3a05080508050805080d320d2e0d2a0c0118a918b10bce0bcb0bc31881188118810bbb0bb30bab0ba4)
 (l 0x11e31248071c0508071811db11d41e2e0508050812911e660de905080508050805080508050805080508050811ac1e0e10b21d4210aa1d4a050807101aa41aa405080508070810200de10dd90dd11a9c0fd01c9505081cb51a940c640c5c0c551d1d0f070eff1c02050805080d4a0ccb1092050807000ff81cd50dc90bf10bee)))
 (n (n (l 0x50805080508050805080508108010780508072c0f2f1c2e111c0fe01ca51cad1038103010281ce50508050805080508050810681cf51cfd112c11241da21daa05080508050805080f8b0f830f7b0f750fa01c7d10a2109a050807240f980f9310401c261c1e1c1a0fc80eef0ee71bfa0f1f0df11ab41aac0e5c0e551b1b1b19)
 (l 0x12381e4e07480508050805080508050811bc050805080508050805080508050805080508074411a4119e1166115e115a050805081114110e10ee10e710df10da0508050805080508050805080508050810181cdd073c1dc61dce11761dd61dde11f711ef11eb05080508125e1256125010701d051d0d050805080734118e1e06))
 (n (l 0x5080508050805080508050805080508050805080508050805080508050805080508050805080508050807501d3a1d3a1d3a1d3a1d3a1d3a0ce2196b196b196b0cda0cda0cda0cd31963195e195e195e195e195e195e195e195e195e195e195e195e195e195e195e195e195e195e195e195e195e195e195e195e195e195e195e)
 (l 0x1106050805080f171c0a0f0f1c121c1205080508050811cc1e1e1e260508050805080508050805080508050805080508050805080508050805080508050805080508050805080764101010081cc51ccd0f37075c0508050807580fe80e641b231b231b231b231b231b231b231b231b231b231b231b231b231b231b231b231b23)))))
 (n (n (n (n (l 0x508050805080508050805080508050805080508050805080508050805080508050805080508076c1289128912891286126c12661e761e761e761e761e761e761e761e761e761e761e761e761e761e761dbe1dba1dba1dba1dba1dba1dba1dba1dba1dba1dba1dba1dba1dba1dba1dba1dba1dba1dba1dba1dba1dba1dba1dba)
 (l 0x77c18a118a10b0217791771176b175a17630afa17620af217521752175217521752175217520508050805080508050805080508050805080508050805080508050805080508050805080508050805080508050805080508050807740f550f501c651c651c650508050805080508050805080508050805080508050805080508))
 (n (l 0x1d521d551d521d621d621d621d621d621d621d621d621d621d621d621d621d621d621d621d6217a20b49179a1793178c178417971790178917810b4117ae17b217ab17bc17b417ad17b117aa17bb17b30b3a0b320b2a17ae0b220b1a0b1217b40b0a17b117aa05080508050805080cea0bf91891189111c40508050805080508)
 (l 0x5080508050805080508050805080508079411ff1e46050805080508050805080508078c10fe050805080508050805080508050805080508050805080508050805080508050805080508050805080508050805080508050805080508050805080508050805080508050805080508050805080508050805080508078410ca1d5c)))
 (n (n (l 0x508050805080508050805080508050810d21d921d9a05080fd81c9d1c9d1c9d1c9d1c9d1c9d050805080508050805080508050805080508050805080508050805080508050805080508050805080508050805080508050805080508050805080508050805080508050805080508050805080508050812401e56050805080508)
 (l 0x508050805080508050805080508050805080508050805080508050805080508050805080508050805080508050805080508050805080edf0edb0ed40ecc0ec40ebc0eb40eac0508050805080508050807a0120812070508050811b41e1607980508050805080508050805080508050805080508050805080508050805080508))
 (n (l 0x1e5e1e5e1e5e1230122a1225121f1186117e1e3e1e3e1dee10c21e361d7a10ba1d8a1d821d7210601060105b10561ced104e1ced104807a4050805080508050805080508050805080508050805080508050805080508050805080508050805080508050805080508050805080508050805080508050805080508050805080508)
 (l 0x7b507b507b507b507b507b507b507b507b507b507b507bd189918991899189918991899189907b507b507b507b517c417c417c40b5107ad07ac07ac07ac07ac07ac07ac07ac07ac07ac07ac07ac07ac07ac07ac07ac07ac07ac07ac07ac07ac07ac07ac07ac07ac07ac07ac07ac07ac07ac07ac07ac127e127a1e5e12741e5e))))
 (n (n (n (l 0x1af11ad11ae90e7c0e740e6c0d561a281a280d521a2007b507b507b507b507b507b507b507b507b507b507b507b507b507b507b507b507b507b507b507b507b507b507b507b507b507b507b507b507b507b507b507b507b507b507b507b507b507b507b507b507b507b507b507b507b507b507b507b507b507b507b507b507b5)
 (l 0x1abc1abc1abc1abc1abc1abc1abc1abc1abc1abc1abc0f6d0f651c751c750e941b2b1b2b1b2b0e8c0e841be21bda1cbd1bd21bca1bc21bba1c461c551c4e1bb21bac1b521b4b1ba41b5a1b431b9f1b971b901b881b5a1b801b781b3b1b701b681b5a1b621b5a0e2d0e2d0e2d0e2d0e2b0e230e1b0e140e0c0e050e011ae11af9))
 (n (l 0x1d251d251d251d251d251d251d251d251d25050805080508050805080508050805080508050805080508050805080508050805080508050805080508050805080508050805080508050805080508050805080df91abc1abc1abc1abc1abc1ac91abc1abc1abc1abc1abc1abc1ac61abc1abe1abc1abc1abc1abc1abc1abc1abc)
 (l 0x1db21db21db21db21db21db21db21db21db21db21db21db21db21db21db21db21db21db21db21db21db21db21db21db21db21db21db21db21db21db21db21db21db21db21db21db21db21db21db21db21db2050805080508050805080508050805080508050805080508108a10881d251d251d251d2a1d251d251d251d251d25)))
 (n (n (l 0x5080508050805080508050805080508050805080508050805080508050805080508116e1dfe1dfe1dfe1dfe1dfe1dfe1dfe1dfe1dfe1dfe1dfe121712101152114a1de61de61de61de61de61de61de61b3311421db21db21db21db21db21db21db21db21db21db21db21db21db21db21db21db21db21db21db21db21db21db2)
 (l 0x17cc17cc17cc17cc17cc17cc17cc17cc17cc17cc17cc17cc17cc17cc17cc17cc17cc17cc17cc17cc17cc17cc17cc17cc17cc17cc17cc17cc17cc17cc17cc17cc17cc17cc17cc17cc17cc17cc17cc17cc17cc05080508050805080508050805080508050805080508050805080508050805080508050805080508050805080508))
 (n (l 0x12991299129912991299129912991299129912a11df61df61df61df61df61df61df61df61df61df61df61df61df61df61df61df61df61df61df61df61df61df61df61df61df61df61df61df61df61df61df61b011b011b011b011b011b011b011b01129912d017cc17cc17cc17cc17cc17cc17cc17cc17cc17cc17cc17cc17cc)
 (l 0x17d417d417d417d417d417d417d417d417d41299129912991299129912991299129912991299129912991299129912991299129912991299129912991299129912991299129912991299129912991299129912991299129912991299129912991299129912991299129912991299129912991299129912991299129912991299)))))))

/-- Rows 64..127 of `propsVectorsIndex`. -/
def propsVectorsIndex_rows1 : Tree :=
 (n (n (n (n (n (n (l 0x1e6e1e6e1e6e1e6e1e6e1e6e1e6e1e6e1e6e12a5129912991299129912991299129912991299129912991299129912991299129912991299129912991299129912991299129912991299129912991299129912991299129912991299129912991299129912991299129912991299129912d817d417d417d417d417d417d417d4)
 (l 0x129912991299129912991299129912991299129912991299129912991299129912991299129912991299129912991299129912991299129912991299129912991299129912991299129912991299129912991299129912991299129912ad1e6e1e6e1e6e1e6e1e6e1e6e1e6e1e6e1e6e1e6e1e6e1e6e1e6e1e6e1e6e1e6e1e6e))
 (n (l 0x1b011b011b011b011b011b011b011b011b011b011b011b011b011b011b011b011b011b011b011b011b011b011b011b011b011b011b011b011b011b011b011b011b011b011b011b011b011b011b011b011b011b011b011b011b011b0112a512991299129912991299129912991299129912991299129912991299129912991299)
 (l 0x1d6a1d6a1d6a1d6a1d6a1d6a1d6a1d6a1d6a1d6a1d6a1d6a1d6a1d6a1d6a1d6a1d6a1d6a1d6a1d6a1d6a1d6a1d6a1d6a1d6a1d6a1d6a1d6a1d6a1d6a1d6a1d6a1d6a1d6a1d6a1d6a1d6a1d6a1d6a1d6a1d6a1d6a1d6a1d6a1d6a12e81bea1bea1bea1bea1bea1bea12e01b011b011b011b011b011b011b011b011b011b011b01)))
 (n (n (l 0x166416641664166416641664166416641664166416641664166416641664166416641664166416641664166416641664166416641664166416641664166416641664166416641df61df61df61df61df61df61df61df61df61df612f01d6a1d6a1d6a1d6a1d6a1d6a1d6a1d6a1d6a1d6a1d6a1d6a1d6a1d6a1d6a1d6a1d6a1d6a)
 (l 0x166c166c166c166c166c166c166c166c166c166c166c166c166c166c166c166c166c166c166c166c166c166c166c166c166c166c166c166c166c166c166c166c166c166c166c16541664166416641664166416641664166416641664166416641664166416641664166416641664166416641664166416641664166416641664))
 (n (l 0x16641664166416641664166416641664166416641664166416641664166416641664166416641664166416641664166416641664166416641664166416641664166416641664165c166c166c166c166c166c166c166c166c166c166c166c166c166c166c166c166c166c166c166c166c166c166c166c166c166c166c166c166c)
 (l 0x166c166c166c166c166c166c166c166c166c166c166c166c166c166c166c166c166c166c166c166c166c166c166c166c166c166c166c166c166c166c166c166c166c166c166c16641664166416641664166416641664166416641664166416641664166416641664166416641664166416641664166416641664166416641664))))
 (n (n (n (l 0x17cc17cc17cc17cc17cc17cc17cc17cc17cc17cc17cc17cc17cc17cc17cc17cc17cc17cc17cc17cc17cc17cc17cc17cc17cc17cc17cc17cc17cc17cc17cc17cc17cc17cc17cc166c166c166c166c166c166c166c166c166c166c166c166c166c166c166c166c166c166c166c166c166c166c166c166c166c166c166c166c166c)
 (l 0x1b011b011b011b011b011b011b011b011b011b011b011b011b011b011b011b011b011b011b011b011b011b011b011b011b011b011b011b011b011b011b011b011b011b011b0117cc17cc17cc17cc17cc17cc17cc17cc17cc17cc17cc17cc17cc17cc17cc17cc17cc17cc17cc17cc17cc17cc17cc17cc17cc17cc17cc17cc17cc))
 (n (l 0x1d6a1d6a1d6a1d6a1d6a1d6a1d6a1d6a1d6a1d6a1d6a1d6a1d6a1d6a1d6a1d6a1d6a1d6a1d6a1d6a1d6a1d6a1d6a1d6a1d6a1d6a1d6a1d6a1d6a1d6a1d6a1d6a1d6a1d6a1d6a1b011b011b011b011b011b011b011b011b011b011b011b011b011b011b011b011b011b011b011b011b011b011b011b011b011b011b011b011b01)
 (l 0x1db21db21db21db21db21db21db21db21db21db21db21db21db21db21db21db21db21db21db21db21db21db21db21db21db21db21db21db21db21db21db21db21db21db21db21d6a1d6a1d6a1d6a1d6a1d6a1d6a1d6a1d6a1d6a1d6a1d6a1d6a1d6a1d6a1d6a1d6a1d6a1d6a1d6a1d6a1d6a1d6a1d6a1d6a1d6a1d6a1d6a1d6a)))
 (n (n (l 0x1df61df61df61df61df61df61df61df61df61df61df61df61df61df61df61df61df61df61df61df61df61df61df61df61df61df61df61df61df61df61df61df61df61df61df61db21db21db21db21db21db21db21db21db21db21db21db21db21db21db21db21db21db21db21db21db21db21db21db21db21db21db21db21db2)
 (l 0x1e6e1e6e1e6e1e6e1e6e1e6e1e6e1e6e1e6e1e6e1e6e1e6e1e6e1e6e1e6e1e6e1e6e1e6e1e6e1e6e1e6e1e6e1e6e1e6e1e6e1e6e1e6e1e6e1e6e1e6e1e6e1e6e1e6e1e6e1e6e1df61df61df61df61df61df61df61df61df61df61df61df61df61df61df61df61df61df61df61df61df61df61df61df61df61df61df61df61df6))
 (n (l 0x2c702c702c702c702c702c702c702c702c702c702c702c702c702c702c702c702c702c702d002cd02cd02d302ca02c702c702c702c702c702c702c702c702c704e704e704e71e6e1e6e1e6e1e6e1e6e1e6e1e6e1e6e1e6e1e6e1e6e1e6e1e6e1e6e1e6e1e6e1e6e1e6e1e6e1e6e1e6e1e6e1e6e1e6e1e6e1e6e1e6e1e6e1e6e)
 (l 0x7b607f207ce07c807c20801080108010801080108010801080108010801080108010801080108010801080108010801080108070807080708070807080707bc07f507e607e607e607dd07e007b907b907b907b907b907b907b907b907b907b907cb07f807d407e307ec07d107ce07c207d707bc07c507c807d107da07f507fb)))))
 (n (n (n (n (l 0x2c707e607bf07e907c207fe07fe07fe07fe07fe07fe07fe07fe07fe07fe07fe07fe07fe07fe07fe07fe07fe07fe07fe07fe08040804080408040804080407ef)
 (l 0x2d602d602d602d602d602d602d602d602d602d602d602d602d602d602d602d602d602d602d602d602d602d602d602d602d602d602e502d602d602d602d602d600000000000000000000000000000000000000000000000000000000000000000000000000000000000000000000000000000000000000000000000000000000))
 (n (l 0x666066c02eb02eb02eb02eb02eb066c065d02eb02eb02eb02eb02eb02eb066c02eb02eb02eb02eb02eb02eb02eb02eb02eb066c02eb02eb02eb02eb02eb02eb0651063f063f063f02e2066306420645064b064e02dc06480642064206600654080a065a063c081602e2066302df0645064e080d0813065708130810065102d9)
 (l 0x2ee02f702ee02f7067202f702ee02f702ee02f702ee02f7067202f7066f02f402ee02f702ee02f702ee02f702ee02f702ee02f702ee02f702ee02f7067202f702e8066602e8066902e8066906690666065d02e802e802e80669066902e8066602e802e80669066902e806690669066902e8066602e802e802e802e806690669)))
 (n (n (l 0x2ee02f702ee02f702ee02f702ee02f702ee02f702ee02f7066f067802ee02f702ee02f7067202f7066f0678067e067202f702ee02f7067202f7066f06780675067b02ee02f702ee02f702ee02f7066f02ee02f702ee02f70675067b066f02f702ee02f702ee02f7067202f702ee02f7066f067802ee02f702ee02f702ee02f7)
 (l 0x30602fa0306030602fa02fa02fa03060306030602fa0306030602fa030603060306030602fa02fa03060306030602fa0306030602fa030602fa0306030602fa02f102ee02f702ee02f702ee02f702f702ee02f702ee02f702ee02f702ee02f702ee02f702ee02f7067202f702ee02f7066f067802ee02f702ee02f702ee02f7))
 (n (l 0x2fd030902fa06810309068103090681030906810309068103090681030906810309068103090300030c030c0300030c030c0300030c030c030303030303030302fa02fa02fa0306030302fa02fa0306030602fa030602fa03060306030602fd0309030602fa030602fa02fa030602fa0306030602fa030602fa030602fd0309)
 (l 0x9e409ea0cb70baf09e709ed09e409ea09e709ed09e709ed02fd030902fd030902fd030902fd030902fd030902fd030902fd030902fd030902fd030902fd030902fd030902fd030902fd030909e709ed09ea09ea02fd03090300030c030c02fd02fd030902fd030902fd030902fd030902fd030902fa030602fd030902fd0309))))
 (n (n (n (l 0x30f030f0684030f030f030f030f030f030f030f030f030f030f030f030f030f030f030f0684030f0efa0efd0efa0efd0efa0efd0efa0efd0efa0efd0efd0efd0efd0efa0db90db60db60db90db90db60db90db90db60db60db60cb70cb70cb709e709ed09e709ed09e709ed09e709ed09e709ed09e709ed09e709ed09e409ea)
 (l 0x32703270327032703270327032703270cba0cba09f009f009f009f009f0030f030f030f030f030f030f030f030f030f030f030f030f030f030f030f030f030f030f030f030f0312030f030f030f030f030f030f030f030f030f030f030f030f030f030f030f030f030f030f030f030f030f030f030f030f030f030f030f030f))
 (n (l 0xcbd0cbd0cbd0cbd0cbd0cbd0cbd0cbd0cbd09f609f309f609f909f903180318031803180318032703270327032703270b25031806870315068706870687068703180318031803180318031803240690031e031e068d0321068d068d068d0321068d031e0318068a03180318031b031b031e031e031e031e031e031e031e0327)
 (l 0x69306930693069306930693069306930693069306930693069306930693069306930693069306930693069306930693069306930693069306930693069306930693069306930693069306930693069306930693069306930693069306930693069306930693069306930693069306930cbd0cbd0cbd0cbd0cbd0cbd0cbd0cbd)))
 (n (n (l 0xfa50fa8033c03330fa50fa80fa50fa80cb40cb40cb40cb40cb40cb40cb40cb40cb40cb40cb40cb40cb40b2b069906990d860d860d860ec10ebe0ebe0ebe0ebe0d830d830d830d830d830d830d830d830c6c0b280b280b280b280b280b280b280b280b28094e06960696094b0696069606930693069306930693069306930693)
 (l 0x69c069c069c069c069c069c069c0348034803480348034803510351069f069f069f069f069f069f069f0009069f069f069f069f069f069f069f069f069f069f069f069f069f069f069f069f069f03480351035100090351000903510351035103300351032d033f000900090009000914fd032a0f000f000f00034200090009))
 (n (l 0xcc30bb20b640b670345034b035403540336033903360339033603390336033903360339033603390336033909fc034e09fc034e09fc034e09fc034e0bb50bb809fc034b0354035103510357035403540fa803480348034803480348069c069c069c069c069c069c069c0345069c069c069c069c069c069c069c069c069c069c)
 (l 0x6a206a206a206a206a206a206a206a206a806a806a806a806a806a806a806a806a806a806a806a806a806a806a806a806a806a806a806a806a806a806ab06a806a806a806a806a806a806a806a806a8036303660a0b0366036303630363036303660363036303630366036306ab0a0b0dbf0dbf0dbf0dbc0cc00cc30cc60cc0))))))
 (n (n (n (n (n (l 0x35d0363035d036303600366035d0363035d0363035d0363035d0363035d0363035d0363035d0363035d0363035d0363035d0363035d0363035d03600a050360035d035d035d035d0360035d035d035d0360035d06a50a0506a206a206a206a206a206a206a206a206a206a206a206a206a206a206a206a206a206a206a506a2)
 (l 0x35d0363035d0363035d0363035d0363035d0363035d0363035d0363035d0363035d0363035d0363035d0363035d0363035d0363035d0363035d0363035d0363035d0363035d0363035d0363035d0363035d0363035d03630a020a080a020a080bbb0bbe09ff09ff114f093c093c095a0957035a035d0363035d0363035d0363))
 (n (l 0xf030f06036003660dc20dc5036003660360036603600366036003660a050a0b03600366035d0363036003660360036603600366035d0363036003660360036603600366035d036303600366035d036303600366036003660f030bbb0bbe035d03630bbb0bbe035d03630bbb0bbe035d0363036003660363035d0363035d0363)
 (l 0x3780378037803780378037803780378037803780378000c15331536153315361533153615331536136e13711185118810201023102010231020102310201023102010231020102310201023102010230f300f330f300f330c2a0c2d0c2a0c2d0c2a0c2d0c2a0c2d0c2a0c2d0c2a0c2d0c2a0c2d0c2a0c2d0f030f060f030f06)))
 (n (n (l 0xc0a0e037e1941037503720372037203720372037203720372037203720372037203720372037203720372037203720372037203720372037203720372037203720372037203720372037203721941036c0369036f036903690369037b000c000c037803780378037803780378037803780378037803780378037803780378)
 (l 0xf000f000f000f0dcb0dce0dcb098103900381038103840381038d0381038103810f090381038103810381038103810381038103810381097e097e097e097e097e097e097e097e097e097e097e097e097e0dc8097e097e097e097e097e097e097e097e097e097e097e097e097e097e097e097e097e000f141c15001500000c))
 (n (l 0xdd40fae0fae0fb10fb10fb11503141f0cdb0cdb0cdb0cdb000f000f000f000f000f000f000f000f000f000f000f0387038a0393039303931944000f000f000f000f039303930393039303930393039303930393039303930393039303930393039303930393039303930393039303930393039303930393000f000f000f000f)
 (l 0x94203ae03ae03ae03ae03ae03ae03ae03ae03ae03ae08cd0fb40fb40fb40fb40fb403ae03ae03ae03ae03ae03ae03ae03ae03ae03ae03ae03ae03ae03ae03ae03ae03ae03ae03ae03ae03b103b103b103b103b103ae133808ca0dd7001214fa08c40fab0fab0fab0fab0fab0cc90cc90cc90cc90cc90cc90cd20cd20cd508c7))))
 (n (n (n (l 0x3ae03ae03ae03ae03ae03ae03ae03ae03ae03ae03ae03ae03ae03ae03ae03ae03ae03ae03ae03b403b403b403b403ae03ba03ae03ae093f0bc10bc1039f03a203a503a8096009600960096009600960096009600960096013350dd10dd10dd10dd10dd10dd10ccc0ccf0cc90b5e0b5e0b5e0942094209420942094209420942)
 (l 0xa1403ae03ae03ae03ae03ae03ae03ae03ae03ae03ae03ae03ae03b103ae03b10a1403ae03ae03ae03ae03ae0a140a1403ae03ae03ae03ae03ae03ae03ae03ae03ae03ae03ae03ae03ae03ae03ae03ae03ae03ae03ae03ae03ae03ae03ae03ae03ae03ae03ae03ae03ae03ae03ae03ae03ae03ae03ae03ae03ae03ae03ae03ae))
 (n (l 0xa2c00150a200a230a200a230a230a230a230a230a230a230a230a290a290a290cd80a110a110a140a140a1403ab03ab03ab03ab03ab03ab03ab03ab03ab03ab0cd80cd80399039c039c039c039f0399039903b703b70399039903990399039c039c039f0396039903990399039903990399039903ae095d03b103ae03ae03ae)
 (l 0xcde0cde0cde001500150a1a0a1a0a1a0a1a0a1a0a1a0a1a0a1a0a1a0a1a0a1a0a1d0a1d0a1d0a1d0a1d0a1d0a1d0a1d0a1d0a1d0a1d0a1d0a1d0a1d0a1d0a1d0cde0cde0cde0a260a260a260a260a260a260a260a260a260a260a260a260a260a260a260a260a260a260a260a260a260a260a260a260a260a260a260a170a26)))
 (n (n (l 0xa320a320a320a320a320a320a320a320a320a320a320a320a320a320a320a321035103510351035103510351035103510351035103510351035103510351035103510350e370e370e370e370e370e370e370e370e370e370e370e370e370e370e370e370e370e370e370e370e370e370e370e370e370e370e370e370e370e37)
 (l 0xf4e0f4e0f4e0f4e0f4e0f4e0f4b0f4b0f4b0f4b0f4b0f4b0f4b0f4b0f4b0f4b001800180018001800180018001800180018001800180018001800180bc40a2f0a2f0a2f0a2f0a2f0a2f0a2f0a2f0a2f0a2f0a2f0a320a320a320a320a320a320a320a320a320a320a320a320a320a320a320a320a320a320a320a320a320a32))
 (n (l 0x252025202520252025218f918f918f918f918f918f918f918f918f918f918f9196b196b1968010b010b0f540f570f480f450f450f510f510f420f420f420f420f420f420f420f420f420f4e0f4e0f4e0f4e0f4e0f4e0f4e0f4e0f4e0f4e0f4e0f4e0f4e0f4e0f4e0f4e0f4e0f4e0f4e0f4e0f4e0f4e0f4e0f4e0f4e0f4e0f4e)
 (l 0x15b701bc01bc01bc01bc01bc01bc01bc01bc01bc01bc01bc15ba15ba15ba15ba00720072007200720b370b370b370b370b370b370b370b370b3a0b3a0b370b370000000000000000000000000000000000000000000000000000000000000000)))))
 (n (n (n (n (l 0x16ad16ad16ad16ad16ad16ad16ad01fb01fb01fb01fb01fb01fb01fb01fb01fb000000000000000000000000000000000000000000000000000000000000000016741674167416741674167416741674167401ef01ef01ef01ef01ef01ef01ef)
 (l 0x27602760276027602760276027602760276027602760276027602760276027600000000000000000000000000000000000000000000000000000000000000000174017401740174017401740174127b127b127b127b127b127b127b127b127b))
 (n (l 0x1b601b601b601b601b601b614d614d614d614d614d614d614d614d614d614d6000000000000000000000000000000000000000000000000000000000000000001d101d101d101d101d101d101d101d101d101d101d101d101d101d101d101d11af71af71af71af71af71af71af71af71af71af71af71af71af71af71af71af7)
 (l 0x24f024f024f024f024f024f024f024f024f024f024f024f024f18ea18ea18e70000000000000000000000000000000000000000000000000000000000000000025b025b025b025b025b025b025b025b025b025b025b025b025b025b025b025b0000000000000000000000000000000000000000000000000000000000000000)))
 (n (n (l 0x29d029d029d029d029d029d029d029d029d029d029d029d029d029d029d1b1b000000000000000000000000000000000000000000000000000000000000000002610261026102610261026119b619b619b619b619b619b619b619b619b619b60000000000000000000000000000000000000000000000000000000000000000)
 (l 0x1665166501e901e901e901e9165f165f165f165f165f165f165f165f165f165f000000000000000000000000000000000000000000000000000000000000000002160216021602160216021602160216021602160216021617a917a917a917a9))
 (n (l 0x2a302a302a302a302a302a302a302a302a302a302a302a302a302a302a302a30000000000000000000000000000000000000000000000000000000000000000169b169b169b169b169b169b169b169b169b169b169b169b169b169b169b169b15b115b115b115b115b115b115b115b115b115b115b115b115b115b115b115b1)
 (l 0xd800d800d800d800d800d800d800d800d800d80e2e0e2b0e2b0e2b0e2e0e2e000000000000000000000000000000000000000000000000000000000000000001fe01fe01fe01fe01fe01fe01fe01fe01fe01fe01fe01fe17131713171317130000000000000000000000000000000000000000000000000000000000000000))))
 (n (n (n (l 0x231023102310231023118451845184518451845023118451845023118451845000000000000000000000000000000000000000000000000000000000000000017c117c117c117c117c117c117c117c117c117c117c117c117c117c117c102250000000000000000000000000000000000000000000000000000000000000000)
 (l 0x19cb19cb19cb19cb19cb19cb19cb19cb19cb19cb19cb19cb19cb19cb19cb026700000000000000000000000000000000000000000000000000000000000000001a6a1a7002820282028202821a6d1a6d1a6d1a6d1a6d1a6d1a6d1a6d1a6d1a6d0000000000000000000000000000000000000000000000000000000000000000))
 (n (l 0x3000300030003000300030003000300030003000300030003000300030003097b097b0000000000000000000000000000000000000000000000000000000000000000000000000000000000000000000000000000000000000000000000000285028502850285028502850285028502850285028502850285028502850285)
 (l 0xd8c0d8c0d8c0d8c0d8c0d8c0d8c0d8c0d8c0d8c0d8c0d8c00060006000600060006000600060006000600060006000600060006000600060006000600060006000600060006000600060006000600060006000600060006097b097b000300030003000300030003000300030003000300030003000300030003000300030003)))
 (n (n (l 0x1b03ea001b03ea03ea03ea03ea03ea03ea03ea001b03ea03ea03ea03ea03ea03ea03ea03ea03ea03ea03ea03ea03ea03ea001b001b03ea03ea001b001b03ea03ea03ea03ea03ea03ea03ea03ea001b03e403e403d5150900060006000600060006000600060006000600060006000600060006000600060d8c0d8c0d8c0d8c)
 (l 0x3e103e103ea03ea0966096609660966096609660966096609660966001b001b03d503d503ea03ea03ed001b03ed03ed001b001b001b001b03d5001b001b001b001b001b001b001b001b0ddd03db03e703e7001b001b03e403e4001b001b03d503d503d503d503e403e403d50ce403d8001b001b03ea03ea03ea03ea001b001b))
 (n (l 0x1e001e03fc03fc001e03ff03fc001e03ff03fc001e03fc03fc03fc03fc03fc03fc03fc001e03fc03fc03fc03fc03fc03fc03fc03fc03fc03fc03fc03fc03fc03fc001e001e03fc03fc001e001e001e001e03fc03fc03fc03fc03fc03fc001e0cea03f00ce7001e001b1947189f18a2115e03de03e103de03de03de03de03de)
 (l 0x1e001e001e001e001e194a0fbd03fc03fc03fc03f003f00969096909690969096909690969096909690969001e001e001e001e001e001e001e03ff001e03fc03ff03ff03ff001e001e001e001e001e001e001e0fbd001e001e001e03f603f003f0001e001e03f003f0001e001e001e001e03f003f003f903f903f9001e03f3)))))))

/-- Rows 128..191 of `propsVectorsIndex`. -/
def propsVectorsIndex_rows2 : Tree :=
 (n (n (n (n (n (n (l 0x40204020402040b040b040b040e040500210021040e040e040e040e040e0021040e040e0021040e040e040e040e040e040e040e0021040e040e040e040e040e040e040e040e040e040e040e040e040e040e0021040e040e040e0021040e0cf3040e040e040e040e040e040e040e0021040b040204020021001e001e001e001e)
 (l 0x42004200411002418a818a818a818a518a518a5172500210021002100210021002100210cf01422096c096c096c096c096c096c096c096c096c096c002100210ced0ced0cf3040e002100210021002100210021002100210021002100210021002100210021040e002100210408040b040b0021040b04020402002104020402))
 (n (l 0x4230024002404230420002400240fc0041104110411042004110411042604140024002404260426042604260cf600240426042600240426042604260426042604260426002404260426042604260426042604260426042604260426042604260426002400240426042600240024042604260426042604260426042604260024)
 (l 0x2704380438043804380438043800270438042c00270027002400240024002400240024002400241344134413441344134413440cf6041a041d041d041d041d041d041d041d041d041d041d002400240fc00fc00426042604260024042904290024002400240024041104111ab5002400240024002400240024002404170423)))
 (n (n (l 0x4350435002704320432043200270027002704320432042c0432042c00270027002700270438043804380de0043804380438043804380438043804380027002700270438043804380027002700270438043800270027002704380438002704380027043804380027002700270438043b04380438002704380438043800270027)
 (l 0x44d044d002a044d044d044d044d044d044d044d044d194d044a044a044a150c002700270027002700270cf90cfc0cf90cf90cf90cf90cf90db0096f096f096f0972097209720972097209720972097209720ef70027002700270027002700270027002700270027042c0027002700270027002700270fc300270027042f0435))
 (n (l 0x2a043e043e002a002a002a002a002a002a002a0444043e043e043e002a0441043e043e002a044a044a044a044a043e043e043e0fcc002a002a002a044d044d044d044d044d150f044d044d044d044d044d044d044d044d044d044d002a044d044d044d044d044d044d044d044d044d044d044d044d044d044d044d002a044d)
 (l 0x45c045c045c045c045c045c002d045c045c045c002d045c045c045c045c045c045c045c045c195004560456151217e50fc90fc90fc90fc90fc90fc90fc90fc91a19002a002a002a002a002a002a002a0447044704470447044704470447044704470447002a002a0fc60fc6044d044d002a002a002a002a002a17280fcc0fcc))))
 (n (n (n (l 0x2d045c002d002d002d002d002d002d002d04500450002d002d002d002d002d002d002d0453045004590459002d045904590450002d04560456045004560459045004560d020cff002d002d045c045c045c045c045c002d045c045c045c045c045c045c045c045c045c045c002d045c045c045c045c045c045c045c045c045c)
 (l 0x46e046e046e046e046e046e046e046e046e046e046e046e046e046e0030046e046e046e0030046e046e046e046e046e046e046e046e1ab804680468151518ab002d002d002d002d002d002d002d002d002d002d002d002d002d0f120f12002d0975097509750975097509750975097509750975002d002d0f0f0f0f045c045c))
 (n (l 0xfd80fd80fd80fd80fd80fd80fd517e817e817e80fd20fd20fd20fd20fd20fd20465046504650465046504650465046504650465003000300fcf0fcf046e046e172b17e817e817e817e817e817e817e8045f17eb17eb17eb003000300030003017e8134a0462046b046b046b003004680468046800300fcf045f045f045f0468)
 (l 0xa440a440a440a44003300330a4400330a440a440a440a440a440a440a440a440a4400330a440a440a440a440a440a440a440a440a440a440a440a440a440a440a440a440a440a440a440a440033003300330a440a440a440a440a440a440a440a440a440a440a440a440a440a440a440a440a440a4400330a3e0a3e1abb0033)))
 (n (n (l 0x489048904890036003300330033003300330033003300330033003300330a3b0a3e0a3e0033003315181518151815181518151815181518151815180033003300330033003300330a350a410a410a410a3e0a410a3e0a3e00330a3500330a350a350a350a3e0a3e0a3500330033003300330a380033003300330a440a440a44)
 (l 0x483048304830483047d04770474047704770477047704770477048c0489048f048f048f048f048f04710036003600360036047a04740474047404740474047404860489047404890489048904890489048904890489048904890489048904890489048904890489048904890489048904890489048904890489048904890489))
 (n (l 0x49e049e049e049e1a1f1a1f1a1f1a1f1a1f1a1f049e1a1f0039049e1a1f049e049e1a1f0039049e0039049e049e00390036003600360036003600360036003600360036003600360036003600360036003600360036003600360036003600360036003600360036003600360036003604800480048304830483048304830483)
 (l 0x498049804980498049804980498049800390039049204950495049504950495003904a4003904a704a704a704a704a700390039049e049204921a1c049204920492049204920492049b049e0492049e049e049e049e1a1f049e049e1a1f1a1f049e0039049e0039049e049e049e1a1f049e049e049e049e049e049e049e1a1f)))))
 (n (n (n (n (l 0x9ba09b709b709b709b709ba09b709b709b709b709ba09b709b709b709b7003c09b709b709b709b709ba09b709b709b7003900390039003900390039003900390039003900390039003900390039003900390039003900390039003900390039003900390039003900390039003900391425142504a104a10039003904980498)
 (l 0x9840a47098409840987098409840984134d134d134d135309b709b709b709b7098a098a0996098d098a098a0987098409b109840984098409840984099009870990098709870984098709840984003c003c003c003c0fe40fe40a5309ba09b709b709b709b709b709b709b709b709b709b709b709b709ba09b709b709b709b7))
 (n (l 0x1161116111610fdb0fe10fde0de30de30a4d0fdb003c0a4d0a4d0a4d0a4d0a4d0a4d0a4a0a4d0a4d0a4d0a4d0a4d0a4d0a500a50003c0a470a470a4709870a4709840984098409840984098409840a470a470a47098409870984098409840984098709840984098409840987098409840984098409870984098409840984003c)
 (l 0x4aa04aa04aa04aa04aa04aa04aa04aa04aa04aa04aa04aa003f003f142b003f003f003f003f003f142b003f04ad04ad04ad04ad04ad04ad003c003c003c003c003c003c003c003c003c003c003c003c003c003c003c003c003c003c003c003c003c003c003c003c003c003c003c003c003c003c003c003c003c135013501161)))
 (n (n (l 0xa7d0a7d0a7d0a7d0a7d0a7d0a7d0a7d0a7d0a7d0a7d0a7d004200420a7d0a7d0a7d0a7d00420a7d0df20a7d0a7d0a7d0a7d0a7d0a7d0a7d004200420a7d0a7d0a7d0a7d00420a7d00420a7d0a7d0a7d0a7d0a7d0a7d0a7d004200420a7d0a7d0a7d0a7d00420a7d0df20a7d0a7d0a7d0a7d0a7d0a7d0a7d04aa04aa04aa04aa)
 (l 0xdf20a7d0a7d0a7d0a7d0a7d0a7d0a7d0a7d0a7d0a7d0a7d0a7d0a7d0a7d0a7d00420a7d0a7d0a7d0a7d0a7d0a7d0a7d0df20a7d0a7d0a7d0a7d0a7d0a7d0a7d004200420a7d0a7d0a7d0a7d00420a7d00420a7d0a7d0a7d0a7d0a7d0a7d0a7d004200420a7d0a7d0a7d0a7d00420a7d0df20a7d0a7d0a7d0a7d0a7d0a7d0a7d))
 (n (l 0xa710a710a710a710a710a710a7a0a7a0a7a0a7a0a7a0a7a0a7a0a7a0a7a0a800a800a740a740a740a740a800a770def0dec13561356004200420a7d0a7d0a7d0a7d0a7d0a7d0a7d0a7d0a7d0a7d0a7d0a7d0a7d0a7d0a7d0a7d0a7d0a7d0a7d0df20a7d0a7d0a7d0a7d0a7d0a7d0a7d004200420a7d0a7d0a7d0a7d00420a7d)
 (l 0xa980a980a980a980a980a980a980a980a980a980a980a980a980a980a980a980a980a980a980a980a980a980a980a9500450045172e172e172e172e172e172e0045004517310a830a830a830a830a830a830a830a830a830a830a830a830a830a830a830a830a830a830a830a830a830042004200420a710a710a710a710a71))))
 (n (n (n (l 0xac20ab90ab60ab60aa40aa70aa40aa40aa40aa40aa40aa40aa40aa40aa40abf0abf0aa10abf0abf0abf0abf0abf0abf004b004b004b004b004b004b004b151b151b151b151b151b151b151b151b0a9e0a9e0a9e0a9b0a9b0a9b0a9e0a9e0a9e0a9e0a9e0a9e0a9e0a9e0a9e0a9e0a9e0048004800480a8f0a920a980a980a98)
 (l 0xae00ae00ae00ae00ae00ae00ae00ae000510ac80aec0aec0aec0add0ae90ada0ad10ad40b4f0ad70b550b520ad10ad1004e004e004e004e004e004e0d080d080d080d080d080d080d080d080d080d08004e004e004e004e004e004e0abc0abc0abc0abc0abc0abc0abc0abc0abc0abc004e004e0d050ac20ab30ab60aad0ab0))
 (n (l 0x11b811b811b811b811b811b811b811b80051005100510051005110020acb0ae30ae30ae30ae30ae30ae30ae30ae30ae3005100510051005100510051005119530ae30ae30ae30ae30ae30ae30ae30ae30ae30ae30ae30ae30ae30ae30ae30ae30ae30ae30ae30ae30ae30ae30ae30ae30051005100510051005100510ae00ae0)
 (l 0x4cb04cb04cb04cb04cb04cb04cb04cb04ce005404ce005404ce005404ce005404cb04cb04cb04cb04cb04cb04cb04cb0054005404ce04ce04ce04ce04ce04ce0054005404cb04cb04cb04cb04cb04cb04ce04ce04ce04ce04ce04ce04ce04ce04cb04cb04cb04cb04cb04cb04cb04cb11b811b811b811b811b811b811b811b8)))
 (n (n (l 0x4cb04cb005404cb04cb04cb04c204c504c504cb04c504ce04ce04ce04ce04ce04cb04cb005404cb04cb04cb04cb04cb04ce04ce04ce04ce04ce04ce04ce04ce04cb04cb04cb04cb04cb04cb04cb04cb0054005404cb04cb04cb04cb04cb04cb04cb04cb04cb04cb04cb04cb04cb04cb04ce04ce04ce04ce04ce04ce04ce04ce)
 (l 0x14f714f70057100b0bcd0bcd0bcd0bca005404c504c804ce04ce04ce04ce04ce04cb04cb005404cb04cb04cb0054005404c204c204c204ce04ce04ce04ce04ce04cb04cb04cb04cb04cb04cb04cb04cb04c204c204c2005404ce04ce04ce04ce04cb04cb0054005404cb04cb04cb04cb04c204c204c204ce04ce04ce04ce04ce))
 (n (l 0x5d005d005d005d005d005d005d005d005a005a005a135913591359135913591359135913590dfb0dfb0dfb0dfb0dfb005a052b0531052505370525051f051f051f051f051f06de06de06de06de051f06e4052e05340528053a05280522052205220522052206e1005a005a0bdf052204d704d704d704d704d704d714f714f7)
 (l 0x1011101110110f1e0b07057905790579006000600060006000600060006000600060006000600060006000600060114c0f150f150f150f150e010be80be80be80be80beb0beb0be50afe0afb054905460546054605460549054905490549054905490549054905490549054905490549005d005d005d005d005d005d005d005d))))))
 (n (n (n (n (n (l 0x5af05af05af05af05af05af05af05af00660066006600660066006600660066006600660066006600660066006600660066006600660066006600660066006600660b130b1305ac05ac05ac05ac05ac058205820582058205850585070e070e070e070e070e070e070b070b070b070b00630063006300631737173712ab1011)
 (l 0xb2e0b2e0b2e0b2e0b2e0b2e0b2e0b2e0b310b2e0b2e0b2e0b2e006c0b2e0b2e0b2e0b2e0b2e0b2e0b2e0b2e0b2e0b2e0b2e0b2e0b2e0b2e0b2e0b2e0b2e0b2e0b2e0b2e0b2e0b2e0b2e0b2e0b2e0b2e00690069006900690069006900690069006900690069006900690069006900690069006900690069006905af05af05af))
 (n (l 0x843083d0843083d0843083d08430075006f006f006f006f006f006f006f006f006f006f0b340b340b340b340b340b340b340b340b340b340b340b340b340b340b340b340b340b340b340b340b340b34006c006c006c006c006c006c006c006c006c006c006c006c0b310b2e0b2e0b2e0b2e0b2e0b2e0b2e0b2e0b2e0b2e0b2e)
 (l 0x85b085b085b007800780078007800780c9008490846091e091e09540954007500750c930c930840083d083d083d083d083d0843083d083d083d083d083d083d0843083d0843083d0843083d083d083d083d0840083d0840083d0840083d0840083d0840083d0840083d0840083d0840083d0840083d0840083d083d0843083d)))
 (n (n (l 0x92a092a092a092a092a092a092a092a092a092a092a092a092a092a09270927007b085e085e085e085e085e085e085e085e085e085e085e085e085e085e085e085e085e085e007b1a01191a113a085b085b085b085b085b085b085b085b085b085b085b085b085b085b085b085b085b085b085b085b085b085b085b085b085b)
 (l 0xb4c0b4c0b4c0b4c0b4c0b4c0b4c0b4c0b4c0b4c0b4c0b4c0b4c0b4c0b4c0b4c0081008100810b460b460b460b460b460b460b460b460b460b460b460b460b46007e0d980d9808670867086708670867086708670867086708670867086708670867086708670867086708670867086708670867086708670867086708670867))
 (n (l 0x125412541254125412541254125412541254125412541254125412541254125400870087008700870087008700870087008700870087008709db09db09db09db11df11df11df11df11df11df11df11df11df11df11df11df11df11df11df11df0084008400840084008400840084008400840b4c0c9c0b4c0b4c0b4c0c9c0b4c)
 (l 0x8a0603008a06030603060306030603008a06030603060306030603060306030603060306030603060306030600060906090609060906090609060906090609060305fd0b1f008a008a008a008a008a05fa05fa05fa05fa05fa008a008a008a008a008a008a008a008a008a008a008a008a060c060c060c060c060c060c060c))))
 (n (n (n (l 0x618061e061e0618061e0618061e0618061e0621061b0618061e008d008d008d008d008d008d008d008d008d008d008d008d008d008d008d008d008d136b136b0618061e0621061b0618061e0621061b0618061e0621061b0618061e0618061e0606060306030603060306030603060306030603008a06030603008a06030603)
 (l 0x6180618061b0618061806180618061b06180618061b061b061b061b008d008d061b061b061b061b0618061b061b061b0618061b06180618061b06180618061806180618061b061b06180618061b0618061b061b061b061b061b061b0618061b008d008d008d008d008d008d008d008d008d008d008d008d008d008d008d008d))
 (n (l 0x8940894089408820882088208820da10da40cb10cb1088e0891088e0891087f008d008d0db30c2406150615061e061e061e061e061e061e061e0978061e061e0b6a0b6a0b6a0b6a0b6a0b6a0b6a0b6a0b6a0b6a0b6a0b6a0b6a0b6a0b6a0b6a008d008d008d008d008d008d008d008d06180618061b061b061b061806180618)
 (l 0x633062d063306360630062d063306360630062d063306360630062d063306360636062a0636062a0636062a0636062a0636062a0093062a0c27062a0636062a0090009000900090089d08a308a608b8009008b808b808b808bb08b808b8089d089d089a08a0089a08a0089a08a008a908c108c108b508b2009008be08af08ac)))
 (n (n (l 0x77707a40783078c079507770774077a07890777077d07800777078607a7009906390639075909de0b220b220b220096009600960096009600960096009600960099075f075f0762076207620762075f0099078007800777079807950780077d062700930093062d0633062d0633062d0633062d063306360630062d0633062d)
 (l 0x7650765076507650765076500990099076507650765076507650765009900990099076507650765076507650765076507650765076507650765076507650765076507650765076507650765076507650765076507650765076507650765076807a7079507950795078f079207a107a107a107a107a107a107a107a107a107a1))
 (n (l 0x16831683168316831683168316831683009f009f009f009f009f0b730b730b730b730b730b730b730b730b730b730b730b730b730b730b730b730b730b730b7318b718b718b7009c009c009c009c009c009c009c009c009c0b6d0b6d0b6d0b6d0099009900990765076507650099009907650765076507650765076500990099)
 (l 0xb880b880b880b880b880b880b880b880b880b880b880b880b880b88101d00a500a50b880b880b880b880b880b880b8800a200a200a200a200a200a200a200a200a200a20b7c0b7c0b7c0b7c0b7c0b7c0b7c0b7c0b7c0b7c0b7c0b7c0b7c0b7c0b7c0b7c0b7c0b7c0b7c0b7c0b7c0b7c16831683168316831683168316831683)))))
 (n (n (n (n (l 0xb9d0b9d00a80b9d0b9d0b9d0b9d0b9d0b9d0b9d0ba00ba00ba00ba00ba00ba00ba00ba00ba00ba00ba00ba00ba00ba000a500a500a500a500a500a500a500a500a500a500a500a500a500a500a500a500a500a500a500a500a500a500a5173d173d173d173d173d173d173d173d173d0b880b880b880b880b880b880b880b88)
 (l 0xb9d0b9d0ba00ba00ba00ba00ba00ba00ba00ba000a80ba00ba00ba00ba000a800a80ba00ba000a800a80ba000a800a80ba00ba000a80ba00b9d0b9d0b9d0b9d0b9d0b9d0b9d0b9d0b9d0b9d0b9d0b9d0b9d0b9d0b9d0b9d0b9d0b9d0b9d0b9d0b9d0b9d0b9d0b9d0b9d0b9d0ba00ba00b9d0b9d0b9d0b9d0b9d0b9d0b9d0b9d))
 (n (l 0xba00ba000a80ba00ba00ba00ba00ba00ba00ba00ba000a800a80ba00ba00ba00ba000a80ba00ba00b9d0b9d0b9d0b9d0ba00ba00ba00ba00ba00ba00ba00ba00ba00ba00ba00ba00ba00ba00ba00ba00b9d0b9d0b9d0b9d0b9d0b9d0b9d0b9d0b9d0b9d0b9d00a80b9d0b9d0d290b9d0b9d0b9d0b9d00a80b9d00a80b9d0b9d)
 (l 0xb9d0b9d0b9d0b9d0b9d0b9d00a80ba00ba00ba00ba00ba00ba00ba000a800a800a80ba000a80ba00ba00ba00ba00ba000a80ba00ba00ba00ba000a80ba00ba00b9d0b9d0b9d0b9d0b9d0b9d0b9d0b9d0b9d0b9d0b9d0b9d0b9d0b9d0b9d0b9d0b9d0b9d0b9d0b9d0b9d0b9d0b9d0b9d0b9d0b9d00a80ba00ba00ba00ba00ba0)))
 (n (n (l 0xb9a0b9a0b9a0b9a0b9a0b9a0b9a0b9a0b9a0b9a0b9a0b9a0b9a0b9a00a800a80f2a0f2d0b9d0b9d0b9d0b9d0b9d0b9d0b970b9d0b9d0b9d0ba00ba00ba00ba00ba00ba00ba00ba00ba00ba00ba00ba00ba00ba00ba00ba00ba00ba00ba00ba00ba00ba00ba00ba000a800a80e160e160b9d0b9d0b9d0b9d0b9d0b9d0b9d0b9d)
 (l 0xae00ae00ae00ae00ae00ae00ae0c330c300c300c360c360c360c3600ae0c360c360c360c360c360c360c360c360c360c360c360c360c3600ab00ab00ab00ab00ab00ab00ab00ab00ab00ab00ab00ab00ab00ab00ab00ab00ab00ab00ab00ab00ab00ab00ab00ab00ab00ab00ab00ab00ab00ab0ba600ab0b9a0b9a0b9a0b9a))
 (n (l 0xb400b400b400b400b400b400b400b40c420c420c450c450c450c450c450c450c450c450c450c450c450c450c450c450c450c450c450c4500b100b100b100b100b100b100b100b100b10ca50ca50c3c0c390c390c3f0c3f0c3f0c3f0c3f0c3f0c3f0c3f0c3f0c3f0c3f0c3f0c3f0c3f0c3f0c3f0c3f0c3f00ae00ae00ae00ae)
 (l 0xd3b0d3b0d3b0d3b0d3b0d3b0d3b0d3b0d3b0d3b0d3b0d3b0d3b0d3b0d3b0d3b0d3b0d3b0d3b0d3b0d3b0d3b0d3b0d3b0d3b0d3b0d3b0d3b00b700b700b700b700b700b700b700b700b700b700b700b70c480c4800b70c4b0c4b0c4b00b70c4b0c4b0c4b0c4b0c4b0c4b0c4b0c4b0c4b0c4b0c4b0c4b0c4b00b400b400b400b4))))
 (n (n (n (l 0xd410d410d410d410d410d410d410d410d410d410d410d410d350d350d350d350d350d350d350d350d350d350d3e0d3e00ba00ba00ba0d3200ba00ba00ba00ba0d2f0d2f0d2f0d380d380d380d380d380d380d2c0d380d3800ba00ba00ba00ba0d380d380d380d2c0d2c0d380d380d380d380d2c0d2c0d2c00ba153915390d3b)
 (l 0x153c153c153c153c153c153c153c153c153c153c153c153c153c153c153c153c153c153c00c000c0153c153c153c153c153c153c153c153c153c153c153c153c153c153c153c153c153c153c153c153c00bd00bd00bd00bd00bd00bd00bd00bd00bd00bd00bd0d410d410d410d410d4100bd00bd0d410d410d410d410d410d41))
 (n (l 0xd680d680d680d680d680d680d680d680d680d680d680d6800c30d680d680d680d680d680d680d680d680d680d680d680d680d680d680d680d680d680d680d680d680d680d6800c30d680d680d680d680d680d680d680d680d680d680d680d68153c153c153c153c153c153c153c153c1abe00c0153c153c153c153c153c153c)
 (l 0xc300c300c300c300c300c300c300c300c300c300c300c300c300c300c300c300c300c300c300c300c300c30d680d680d680d680d680d680d680d680d680d680d680d680d680d6800c300c30d680d680d680d680d680d680d680d680d680d680d680d680d680d680d6800c30d680d6800c30d680d680d680d680d680d680d68)))
 (n (n (l 0xda70da70da70da70da70da70da70da70da70da70da70da70da700c900c900c900c90dad0dad0dad00c600c600c600c600c60d6b0d6b0d6b0d6b0d6b0d6b0d6b0d6b0d6b0d6b0d6b0d6b0d6b0d6b0d6b0d6b0d6b0d6b0d6b0d6b0d6b0d6b0d6b0d6b0d6b0d6b0d6b00c300c300c300c300c300c300c300c300c300c300c300c3)
 (l 0xd7a0d7a0d7a0d7a0d7a0d7a0d7a0d7a0d6e00cc0d710d710d710d710d710d710d710d710d710d710d710d710d710d710d710d710d710d710d710d710d710d710d710d710d710d710d710d710d710d710daa0daa0daa0daa0daa0daa0daa0daa0daa00c900c900c90da70da70da70da70da70da70da70da70da70da70da70da7))
 (n (l 0xd200d20d7d0d7d0d7d0d7d0d7d0d7d187b187b187b187b187b187b187b187b187b187b187b187b187b187b187b187b00cf00cf00cf00cf00cf00cf0d770d770d770d770d770d770d770d770d770d7700cf00cf0d7a0d7a0d7a0d7a0d7a0d7a0d7a0d7a0d7a0d7a0d7a0d7a0d7a0d7a0d7a0d7a0d7a0d7a0d7a0d7a0d7a0d7a)
 (l 0xd500d500d500d500d50d800d800d800d800d800d800d800d800d800d800d800d800d800d800d800d800d800d800d800d800d800d800d800d7d00d200d20d7d00d200d200d20d7d0d7d00d20d7d0d7d0d7d0d7d0d7d0d7d0d7d0d7d0d7d0d7d0d7d0d7d0d7d0d7d0d7d0d7d0d7d0d7d0d7d0d7d0d7d0d7d0d7d0d7d00d20d7d)))))))

/-- Rows 192..255 of `propsVectorsIndex`. -/
def propsVectorsIndex_rows3 : Tree :=
 (n (n (n (n (n (n (l 0xe3a0e400e400e3a0e3a0e430e430e430e430e430e430e430e430e430e430e430e430e430e430e430e430e430e430e430e430e430e430e430132013201321acd11191119111911191119111911191119111911191119111900db17f117f1153f153f0e310e310e310e310e310e310e310e310e310e310e3100d500d500d500d5)
 (l 0x17f400e418bd193e18bd18bd15451542154215421542154215421542154215421542154215421542154210381038103810381038103810380ca20ca20ca20ca20ca20ca20ca20ca20ca20ca20ca20ca20ca20ca20ca20ca200e100e100e100e100e100e100e100e100e100e100e100e111491149114911490e3d0e3d00de00de))
 (n (l 0xea00ea00ea00ea00ea0e580e580e580e580e580e580e580e580e580e580e580e580e580e580e580e580e580e580e580e580e580e580e580e4c0e4f0e490e4c0e4c0e4c0e4f00e700e700e700e700e714311434118e118e118e11911194119111940e490e490e490e490e490e490e520e520e550e520e550f3c0f3c118b1377)
 (l 0xed00ed0e5b0e5b0e5b0e5b0e5b0e5b0e5b0e5b0e5b0e5b0e5e0e5e0e5e0e5e0e5e0e5e0e5e0e5e0e5e0e5e0e5e0e5e0e5e0e5e0e5e0e5e00ea0e580e580e580e580e580e580e5800ea0e580e580e580e580e580e580e5800ea0e580e580e580e580e580e580e5800ea0e580e580e580e580e580e580e5800ea00ea00ea00ea)))
 (n (n (l 0xe640e640e640e640e640e640e640e640e640e640e640e6400f30e670e670e670e670e670e670e670e670e670e670e670e670e670e670e670eb80eb80eb80eb80eb80eb80eb80eb80eb80eb80eb80eb80eb80eb80eb80eb800f000f0143700f000f000f000f000f0143700f00e610e610e610e610e610e6100ed00ed00ed00ed)
 (l 0xe790e790e790e790e790e790e790e790e790e790e790e790e790e790e790e790e790e790e7900f60e790e790e7900f60e790e790e790e790e6d0e6d0e6d0e6d00f600f600f600f600f60e6d0e6d00f60e6d0e6d0e6d0e7900f30e640e640e640e640e640e640e640e640e640e640e640e640e640e640e640e640e640e640e64))
 (n (l 0xf900f900f900f9119a119a0e880e880e880e880e880e880e880e880e880e8800f600f600f600f600f600f600f60e730e7c0e7c0e760e760e760e760e760e7600f600f600f600f600f600f600f619590e730e730e730e730e730e730e730e730e7000f600f600f600f60e6a0e6a0e6a00f600f6195c195c0e790e790e790e79)
 (l 0xe910e910e910e8e0e910e910e910e910e910e910e910e9100fc00fc00fc00fc0e910e910e910e910e820e8200f900f900f911970e850e850e850e850e850e850e850e850e850e8500f900f900f900f900f900f90e880e880e880e880e880e880e880e880e880e880e880e8b0e880e880e8b0e8b0e8b0e880e880e880e880e88))))
 (n (n (n (l 0xff00ff00ff00ff00ff00ff00ff00ff00ff00ff00ff00ff00ff00ff00ff00ff00ff00ff00ff00ff00ff00ff00ff00ff00ff00ff00ff00ff00ff00ff00ff00ff00ff1ac11ac11ac11a251965195f1965195f196218c018c018c018c018c017f7189c15511554154e00fc00fc00fc00fc00fc00fc00fc00fc00fc00fc0e910e91)
 (l 0x137a01050105010501050105010501050105010501050105010501050105137d0ebb0105010501050105010501050105144314430eb80eb80eb80eb80eb80eb8015601560156015601560156130e1311130e130e1317131713171314131413140102010201021ac40eaf0eaf0eaf0eaf0eb20ea90ea90eb20eb20eb50eb50eb5))
 (n (l 0xf7b0f7b0f660f600f7b0f7b0f690f690f690f690f690f690f690f690f690f69010e010e010e010e0f750f750f750f750f750f750f750f720f6f0f5a0f6f0f6f0108010801080108010801080edf0ed60eeb0edc0edc0ee20ee50ed30ed90ee80c750c720c720c720c720c720c720c720c720c720c720c720c720c720c720c72)
 (l 0x111011101110111011101110111011101110111011101110111011101110111011101110111011101111ac71aca1ac71aca1a2b1a2b1a2b1a281a2b01110111010e010e010e0f600f600f600f600f600f600f600f600f600f5d0f5d0f5d0f5d0f5d0f5d0f5d0f5d0f5d0f600f600f600f600f600f600f600f600f600f600f63)))
 (n (n (l 0xf960f960f960f960f960f960f960f960f960f960f960f960f960f960f960f960f960f960f960f96011401140114011401140114011401140f8d0f8d0f870f870f8a0f8a0f8a0f8a0f8a0f8a0f8a0f8a0f8a0f8a0f8a0f8a0f8a0f8a0f8a0f8a0f8a0f8a0f8a0f8a107410741074107410741380144c144c155d1ac71aca0111)
 (l 0x11a011a011a011a011a011a011a011a011a011a011a011a011a011a011a011a011a011a011a011a011a011a011a011a011a011a174c15631563156315631563156315631563156315631563156315631563156315631563156315631563156315631563156315630f9301170117011711a311a30f900f900f900f900f960f96))
 (n (l 0x1974197419741974197419740fa20fa20fa20fa20fa20fa20fa20fa20fa20fa20fa20fa20fa20fa20fa20fa20fa20fa2011d011d011d011d011d011d011d011d011d011d011d15660f9c0f9c0f9c0f9c011d1569156915691569156915691569156915691569156915690f9f0f9f0f9f011a011a011a011a011a011a011a011a)
 (l 0x10a110a110a110a110a110a110a110a1109b109b109b0123012301231095109510951095109510951095109510951095109210921092109e109e012301230123108c108f109810981089108910891089108910891089108910981098109810981098109810981098109b109b109b109b01200120012001200120012001201974)))))
 (n (n (n (n (l 0x10dd10dd10dd10dd10dd10dd10dd10dd10e610e60129012901290129012901290129012917fd10da10e010e010e010e00126012601260126012601260126012601260126012601260126012601260126012601260126012610b910b910b610b610b610b610b610b610b610b610b610b610a410a410a410a410a410a410a110a1)
 (l 0x12f1107110711101110110711071110111011071107110711071107110711131113111311131113111311131113111310fb012c012c012c012c012c012c012c012c012c012c012c110110fe10f810f810f810f810f810f810f810f810f810f810f8110411041104110411041104110401290129012901290129012910dd10dd))
 (n (l 0x13201320132013201320132013201320132013201320132013201320132013201320132013201320132013201321575111611161116110a012f012f110d110d110d110d110d110d110d110d110d110d012f012f11101107111311131113111311131113111311131107111311131113012f012f012f012f012f012f012f012f)
 (l 0x11221122112211221122112211221122112211221122112211221122112211221122112211221122112211221122112201350135111f111c111c111c111c111c111c111c111c111c111c111c111c111c111c111c111c111c111c111c111c111c111c111c111c111c111c111c111c111c01320132013201320132013201320132)))
 (n (n (l 0x112b112b112b112b112b112b112b112b112b112b112b112b112b112b112b112b112b112b112b112b112b112b112b112b013b013b013b013b013b013b013b013b013b013b013b013b013b013b013b1125112511251125112511251125112511251125112511251125112511251125112501380138013811221122112211221122)
 (l 0x11a911a911a911b211a911a911a911a9014401440144014401440144014401440144014401440144113111311131113111311131113111311131113111311131113111311131113111311131113111310141014101410141112e112e112e112e112e112e112e112e112e112e112e112e1128013e013e013e013e013e112b112b))
 (n (l 0x11d311d311d311d311d311d311d311d3014a014a014a014a014a014a014a014a014a014a11b811b811b811b811b811b811b811b811b811b811b811b811b811b811b811b811b811b811b811b811b811b8014711b511b511af11af11af11b511af11b511af11af11af11af11af11af11af0147014711a611a911a911a911a911b2)
 (l 0x11ca11ca11ca11ca11ca11ca11ca11ca11be014d014d11c111c111c111c111c111c111c111c111bb11bb11d011d011d011d011d011d011bb11bb11bb11bb11bb11bb11bb11bb11cd11cd11bb11cd11c4014d11bb11bb11bb11bb11bb11bb11bb11d011bb11d011d311d311d311d311d311d311d311d311d311d311d311d311d3))))
 (n (n (n (l 0x132013201320132013201320130213291adf15bd15c015c015c015c015c015c015c015c015c015c015c015c015c015c0014d014d11c711c711d911d911d911d911d611c711c711c711c711c711c711c7014d014d014d014d014d014d11ca11ca11ca11ca11ca11ca11ca11ca11ca11ca014d014d014d014d014d014d11ca11ca)
 (l 0x12ea12ea12ea12ea12ea12ea12ea12ea0153015301530153015301530153015311f111eb11eb11eb11f111e811e511e511ee11ee11ee11ee11ee11ee11ee11ee11ee11ee11ee11ee11ee11ee11ee11ee015001500150015001501aac17161716193b14ee14ee14f114eb130b12fc12fc12fc12fc132612fc12fc130513081320))
 (n (l 0x15f015f015f015f015f12331227123312031203015c015c015c015c1209120912091209120912091209120912091209131a015c1203120312031203121512151206120312031203120312031203120f01590159015912ea12ea12ea12ea12ea12ea12ea12ea12ea12ea12ea12ea12ea12ea12ea12ea12ea12ea12ea12ea12ea)
 (l 0x1651254125412541254125412541254016201620162016201620162124212421242124212421242124212421242124201620162123f1248124e12451245123c12451245123c12451245124b124b124b122d122a123612301230015f015f015f015f015f015f015f015f015f015f015f015f015f015f015f015f015f015f015f)))
 (n (n (l 0x1257125712571257125a0168125d125d125d125d125d125d125d125d125d125d125d125d125d125d125d125d125d125d125d125d125d125d016501650165016512511251125112511251125112511251125112511251125112511251125112511251125112511251125112511251125112511251125112511251016501650165)
 (l 0x126f126f126f126f016e016e12721272127212721272127212721272127212721272127212721272127212721272127212721272127212721269126912691269126912691266016b016b016b126c126c126c126c126c126c126c126c126c126c126c126c126c126c126c126c126c126c126c126c126c126c1257125712571257))
 (n (l 0x127e127e127e127e127e127e127e127e127e127e127e127e127e127e127e127e127e127e127e127e127e127e127e127e127e127e127e127e12751275127512751275127512751275017101710171017101711278127812781278127812781278127812781278127812781278127812781278127812781278126f126f126f126f)
 (l 0x279027902791a4c1a521a4f1a4f1a4f1a4f1a4f1a4f1a4f017d129f129f129f129f129f129f129f129f129f129f129f129f129f129f129f14ca14ca14ca14ca14ca14ca14ca14ca14ca14ca14ca14ca14ca14ca14ca14ca017a017a197d017a017a017a017a017a017a017a017a017a017a017a129912990177127e127e127e))))))
 (n (n (n (n (n (l 0x138c138c138c138c138c138c138c138c138c138c0180018001800180018001800180018001800180018001800180018001800180018001800180018001800180018001800180018001800180018001800180018001800180018001801ad0187e187e187e187e187e187e187e187e187e187e187e187e187e0279027902790279)
 (l 0x13f513f512f012f012f312f012f012f012f012f012f012f012f012f012f012f012f012f012f012f012f012f312f012f012f012f012f012f012f012f012f012f0018301830183018301830183018301830183018301830183018313f213f512f6138c138c138c138c138c138c138c138c138c138c138c138c138c138c138c138c))
 (n (l 0x18301830183018301830183018301830183018301830183018301831920192019201920192019200183018301830183018301830183018301830183018301830183018314191419018301830183018301830183018312ed12ed12ed12ed12ed12ed12ed12ed12ed0183018301830183188113f513f513f513f213f513f513f5)
 (l 0x13a113a1139b139b13a1139813a713a713a713a713a713a70186139201860186138f138f138f139513951395139513951395139513951395139513951395139513951395139513951395139513951395139513951395139501830183018301830183018301830183018301830183018301830183018301830183018301830183)))
 (n (n (l 0x13aa13aa13aa13aa018c13aa13aa13aa13aa13aa13aa13aa018c018c018c018c018c018c018c018c018c13aa13aa13aa13aa13aa13aa018c018c13aa13aa13aa13aa13aa13aa018c018c13aa13aa13aa13aa13aa13aa018c139e139e139e139e0189018901890189018901890189018913a413a4139b139b139b13a1139b13a1)
 (l 0x13b913b913b913b913b913b913b913b913b913b913b313b313b313b313b313b313b313b313b313b313b313b313b313b313b313b3018f018f018f018f13b613b613b613b613b613c213c213b013ad13ad13ad13ad13ad13ad161d161d161d161d161d161d161d161d161d161d161d161d161d161d161d161d018c13aa13aa13aa))
 (n (l 0x19513c813c813c813c813c813c813c813c813c813c813c813c813c813c813c8019201920192019201920192019213c513c513c513c513c513c513c513c513c513c513c513c513c513c513c513c513c513c513c513c513c513c513c513c513c51584018f018f018f018f018f018f018f018f018f018f018f018f018f018f018f)
 (l 0x158715871587158715871587158715871587158715871587158715871587158713c813c813c813c813c813c813c813c813c813c813c813c813c813c813c8019513fe13c813c813c813c813c813c813c813c813c813c813c813c813c813c80195158713c813c813c813c813c813c813c813c813c813c813c813c813c813c80195))))
 (n (n (n (l 0x19801980198170a170a159c159f159c159c159c159f159f159f159f159f159f019801980198019801980198019801981b391b391a8e18c318c3188a188a17d9159f159f159f170d159f159c159c159c159c159c1410141014101410141014130195019501950195019501950195019501950195158715871587158715871587)
 (l 0x15a515a515a51467146714671467146714671467146714671467146715a51467019b019b019b019b019b019b019b019b019b019b019b019b13cb13cb13cb13cb13cb13cb13cb13cb13cb13cb13cb13cb13cb13cb13cb13cb13cb13cb13cb13cb0198019801981b391b391a8e1a0719261926188a188a188a159f159c159c159f))
 (n (l 0x146d146d146d146d146d146d146d146d146d146d146d01a1146d146d146d146d1806180618061806180618061806180618061806180618061983019e019e019e019e019e019e019e019e019e019e019e1ad31ad31ad31ad31ad31ad31ad31ad31ad31ad318091809180918091809180918091809019e175e175e15a515a515a5)
 (l 0x146d146d146d01a1146d01a1146d01a1146d01a101a101a101a1146d01a101a101a101a101a101a1146d01a1146d01a1146d146d146d146d01a1146d146d146d146d146d146d146d146d146d146d01a1146d01a101a1146d01a1146d146d01a1146d146d146d146d146d146d146d146d146d146d146d146d146d146d146d146d)))
 (n (n (l 0x146d146d146d146d146d01a1146d146d146d146d146d146d146d146d146d146d01a1146d01a1146d146d146d146d01a1146d146d146d146d01a1146d146d146d146d146d146d146d01a1146d146d146d146d01a101a1146d01a1146d146d01a1146d01a1146d01a1146d01a1146d01a1146d01a101a1146d01a1146d146d01a1)
 (l 0x1a101a101a101a101a101a101a101a101a101a101a101a101a101a101a101a101a101a101a101a1146d146d146d146d146d146d146d146d146d146d146d146d146d146d146d146d146d01a1146d146d146d146d146d01a1146d146d146d01a101a101a101a101a1146d146d146d146d146d146d146d146d146d146d146d146d))
 (n (l 0x1485148514851479147c147c147c147c147c147c147c147c147c147c01a414761476147014701470147314731470147f14701470147014701470148214821482148214821482148201a101a101a101a101a101a101a101a101a101a101a101a101a101a1146a146a01a101a101a101a101a101a101a101a101a101a101a101a1)
 (l 0x149a149a149a149a01a701a701a701a701a701a701a701a701a7148b148e14941494149114971497148e148e14881488148e14911491149114911491149114911491149114911491162f162f162f162f162f162f162f162f162f162f162f162f162f162f162f162f01a401a401a401a401a401a401a401a41ad6198619861989)))))
 (n (n (n (n (l 0x14a614a614a614a61761176117611761176117611761176117611761176117611761176101aa01aa1761176117611761176117611761176117611761176117611761176117611761149a149a1761176101aa01aa01aa01aa149a149a149a149a149a149a149a149a149a149a149a149a149a149a149a149a149a149a149a149a)
 (l 0x14ca14ca14ca14ca14a914a914a914a914a914a914a914a914a914a914a914a914a914a014a014a014a001ad01ad01ad01ad01ad01ad01ad1a341a341a341a341a341a341a341a3414a314a314a314a314a314a314a314a314a314a314a314a314a314a314a314a61a3101ad01ad01ad01ad1a371a371a371a371a371a3714a6))
 (n (l 0x14df14df14df14df13201320132913291320132c13291326132913261326132012ff13231320132301b301b301b301b301b301b301b301b314cd14cd14cd14cd14cd14cd14cd14cd01b001b001b001b001b001b014c714c714c714c714c714c714c714c714c714c701b001b001b001b001b001b001b014ca14ca14ca14ca14ca)
 (l 0x171017101710171901b901b901b901b901b901b901b901b901b901b915b415ae15ae15ae15ae15ae01b901b915b115b115b115b115b115b115b115b115b115b115b115b115b115b101b601b601b601b601b601b601b61a3a14d314dc14d014d014d014d014d014d014d914d914d014d914d014df14df14df14df14df14df14df)))
 (n (n (l 0x1c201c201c201c201c201c201c201c201c201c201c201c201c201c201c201c201c201c201c201c201c201c201c201c201c201c201c201c201c201c201c201c201c201c201c21adf01bf01bf01bf01bf171017101710171017101710171017101710171017101710171017101710171017101710171017101710171017101710)
 (l 0x1c801c801c801c815d215d215d215d215d215d215d215d215cf15c615c315c901c501c515cc15cc15cc15cc15cc15cc15cc15cc15cc15cc01c501c501c501c501c501c501c515cc15cc15cc15cc15cc15cc15cc15cc15cc15cc15cc15cc15cc01c501c501c501c501c515cc15cc15cc15cc15cc15cc15cc15cc15cc15cc15cc))
 (n (l 0x1a911a911a911a911a911a911a911a911a911a911a911a9101cb01cb01cb01cb01cb01cb01cb198c198c198c198c15d515d515d515d515d515d515d515d515d515d515d515d515d515d515d515d515d515d515d515d515d515ba15ba15ba15ba15ba15ba15ba15ba15ba15ba15ba15ba15ba15ba15ba15ba01c801c801c801c8)
 (l 0x15e715e701ce15e715e715e715e715e715e715e701ce15e715e715e715e715e715e715e715e715e715e715e715e715e715e701ce01ce15e715e701ce01ce15e715e715e715e715e715e715e715e701ce172215de171c177601cb01cb01cb01cb01cb01cb01cb01cb01cb01cb01cb01cb01cb01cb01cb01cb01cb01cb01cb01cb))))
 (n (n (n (l 0x15db15db15db15db01ce01ce01ce15db15db15db15db15db15db15db01ce01ce15de15de15e715e715e715e715ea01ce01ce01ce01ce01ce15d801ce01ce01ce01ce01ce01ce177901ce01ce15e415e115e101ce01ce15de15de01ce01ce15de15de15de15de15d815de15d815e7171f1a1601ce15e715e715e715e715e701ce)
 (l 0x1d1180c15f31602160215f61602160215ed15f015fc15ed15f915f915ed15ed15ed15f915f915f915ff15ff15ff15ff15ff15ff15ff15ff15ff15ff15ff15ff15ff01d115ff15ff15ff15ff15ff15ff15ff15ff15ff15ff15ff15ff15ff15ff15ff15ff15ff15ff01ce01ce01ce01ce01ce01ce01ce01ce01ce01ce01ce15db))
 (n (l 0x17a617a617a617a617a617a617a617a617a617a617a617a617a617a617a617a601d701d701d701d71ae21ae21ae81ae51a3d1a3d161a161d177c177c177c177c01d401d401d401d401d401d4160e160e160e160e160e160e160e160e160e160e01d401d401d401d401d4160b1608160516051605160516051605161116111611)
 (l 0x1da01da01da01da01da01da01da01da01da01da162316231623162316231623162316231623162316231623162316231623162316231623162316231623162301da01da01da01da01da01da01da01da01da16231623162316231623162316231623162316231623162316231623162316231623162316231623162316231623)))
 (n (n (l 0x1dd01dd01dd01dd01dd01dd01dd01dd01dd162f162c16291626162f162f162f162f162f162f162f162f162f162f162f162f162f162f162f162f162f162f162f01da01da01da01da01da01da01da01da01da01da01da01da01da01da01da01da01da01da01da01da01da01da01da01da16231623162316231623162316231623)
 (l 0x1e301e301e301e301e301e301e301e301e3164116411641164116411641164116441644164416441644164416441644164401e301e31647164716471647164701e001e001e001e001e001e001e001e001e01638163b163b163b163b163b163b1635163516351635163501e001e001e001e016321632163e163e163e163e163e))
 (n (l 0x1e9166216621662166216621662166216621662166216621662166216621662166216621662166216621662166216621662166216621662166216621662166201e601e601e601e601e601e6165316531653165316531653165316531653165301e601e601e601e601e601e601e601e601e601e601e616591650165c165c164a)
 (l 0x1ef167716771677167716771677167716771677167716771677167716771677167716771677167716771677167716771677167716771677167716771677167701ec166e166e166e166e166e166b166b166b166b166b166b166b166b166b166b166e166e166e166e166e166e166e166e166e16711668166e166e166e166e166e)))))))

/-- Rows 256..319 of `propsVectorsIndex`. -/
def propsVectorsIndex_rows4 : Tree :=
 (n (n (n (n (n (n (l 0x1692169216921692169201f5169816981698169816981698169816981698169801f501f501f501f501f501f501f501f501f501f5169216a1169e169e169b169b01f201f201f201f201f2168016801680168016801683168316831683168316831683168316831683168316831683168316831683168316831683168316831683)
 (l 0x1f801f801f801f801f801f801f816aa16aa16aa16aa16aa16aa16aa16aa16aa16aa16aa16aa16aa16aa16aa16aa16aa16aa16aa16aa16aa16aa16aa16aa16aa169b169b169b01f501f501f501f501f5169b169b169b169b169b169b169b169b169b169b169b169b169b169b169b169b169b169b169b169b169b01f516921692))
 (n (l 0x16bc16c816b616b616cb16cb16c816c80201020116b616b616b616b616c816c816b616ce16ce16ce16ce16ce16ce16ce16ce16ce16ce16ce16ce16ce16ce16ce01fb01fb01fb16b016b016b016b001fb01fb01fb01fb01fb01fb01fb16b316b316b316b316b316b316b316b316b316b316b316b316b316b316b316b316b316b3)
 (l 0x201020102010201020102010201020102010201020102010201020102010201020102010201020102010201020102010201020102010201020102010201020102010201177f177f17821782178217821785178517851785178517851785178517851785178517851785178516d116c516c516c516c216c216d116d116bf16b9)))
 (n (n (l 0x16d716d716d716d716d716d716d716d716d716d716d716d716d716d716d716d7020702070207020716d716d716d716d716d716d716d716d716d716d716d716d70204020402040204020402040204020402040204020416d416d416d416d416d416d416d416d416d416d416d416d416d416d416d416d416d416d416d416d40204)
 (l 0x20702071aeb1aeb0207020716d716d716d716d716d716d716d716d716d716d716d716d716d716d716d716d716d716d70207020702070207020702070207020716d716d716d716d716d716d716d716d702070207020702070207020716d716d716d716d716d716d716d716d716d716d702070207020702070207020702070207))
 (n (l 0x20a020a020a020a020a020a16e616e616e616e616e616e616e616e616e616e6020a020a020a020a020a020a020a020a16ef16e316ef16ef16dd16e016e916da02070207020702070207020702070207020702070207020702070207020702070207020702070207020702070207020702070207020702070207020702070207)
 (l 0x17881788178802100210198f1797179717971797179717971797179717971797179717971797179717971797179717971797179717971797179717971797179716fb020d020d020d020d020d020d020d020d020d020d020d020d16f216f216f216f216f216f216f216f216f216f516f516f516f516f516f516f516f516f516f5))))
 (n (n (n (l 0x213021302130213021302130213021302130213021302130213021302130213021302130213021302130213021302130213179d179d179d179d179d179d179d178e179a179a179a178e178e17911791179117911791179117911791179117910210021002100210178b17881788178817881794178817881788178817941794)
 (l 0x17b217b217b217b217b217b217b217b217b2021c17b217b217b217b2021c17b2021c17b217b217b217b217b217b217b217ac17ac17ac17ac17ac0219021902190219021917af17af021917af17af17af17af17af17af17af17af17af17af17af17af17af17af17af17af17af17af17af02130213021302130213021302130213))
 (n (l 0x21f021f021f021f021f17be17be17be17be17be17be17be17be17be17be17be17be17be17be17be17be17be17be17be1614161416141614161416141614161416141614161416141614161416141614021c021c021c021c021c021c17b517b217b217b217b217b217b217b217b217b217b2021c17b217b217b217b217b217b2)
 (l 0x1b3f1a0a1a0a1a0a1a0a1b3c1a941a0a1a0a1a0a1a0a1a0a19291929192919291929192919291929192919291929192917b817b817b817b817b817b8021f021f021f021f021f021f021f17bb17bb17bb17bb17bb17bb17bb17bb17bb17bb17bb17bb17bb17bb17bb17bb17bb17bb17bb021f021f021f021f021f021f021f021f)))
 (n (n (l 0x2250225022502250225022502250225022502250225022517c417c717c717ca17c717c417c417c117c417c417c417c419291929192c192c192c192c192c192c192c192c192c192c192c192c192c19291a971a971a9702221b3c1a941a941a941a941a941a941a941a941a0a1a0a17df1a0a1a0a1a0a1a0a1a941a0a02221b3c)
 (l 0x183c183c183c183c183c183c183c183c183c183c183c183c183c183c022b183c183c183c183c183c183c183c183c183c181b181b0228022802280228181e181e181e181e181e181e181e181e181e181e02280228022802281a401815181518151812181818181818182118211821182117c117c117c117c117c1022502250225))
 (n (l 0x182d182d182d182d182d182d182d182d182d182d1836183618361836183618361836183618361836022b022b022b022b022b022b022b022b022b022b183018301833183f183f183c182a1839182718271827182718271827022b18271827182718271827182718271839183c183c183c183c183c183c183c183c183c183c183c)
 (l 0x231184518451845184518451845184519ad19ad19ad19ad19ad19ad19ad19ad19ad19ad19ad19ad19ad19ad19ad19ad022e022e022e022e022e022e022e18421842184218421842184218421842184218541854185418541854185418541854185418541854185418541854184e184b022b022b022b182d182d182d182d182d)))))
 (n (n (n (n (l 0x18541854185418541854185418541854023402340234023402340234023402340234023402340234023402341b421b42023402340234023402340234023402340234023402341b451a9d1a9a192f1893184518451845184518450231023118451845184518451845184518451845184518451845184518451845184518451845)
 (l 0x23a023a023a1857185718571857185718571857185718571857185718571857023702370237023702370237023702370237184818481851184818481851184818481848184818481848184818510237184818481848184818481848184818481848184818481848184818480237023718541854185418541854185418541854))
 (n (l 0x23d023d023d023d023d023d023d023d023d023d023d023d023d023d1af11af11a4319921863023d18691aee186c186c186c186c186c186c186c186c186c186c186318661869187518751872187218721872185d186f185a185a1860186f186f023a023a023a023a023a023a023a023a023a023a023a023a023a023a023a023a)
 (l 0x1878187818781878187818781878187818781878187818781878187818781878187818781878187818781878187818780240024002400240187b187b187b187b187b187b187b187b187b187b187b187b187b187b187b187b187b187b187b187b023d023d023d023d023d023d023d023d023d023d023d023d023d023d023d023d)))
 (n (n (l 0x193519351935193519351935193519351935193519351935193519351935193519351935193519351935193519351935024302430243024302430243024302431aa01aa01aa01aa01aa01aa01a131a131a131a131a13189618961896189618961896189618961896189618961896189602400240024002401878187818781878)
 (l 0x18d518d518d518d518d518d518d518d518d518d518d518d518d5024918d518d5024918d518d518d518d518d518d518d50288028802880288028802880288028802880288028802880288028802880288024602460246024602460246024602460246024602460246024602460246024602461935193519351935193519351935))
 (n (l 0x1938193819381938193819381938193802490249024902490249024918d218d218d218d218d218d218d218d218d218d20249024902490249024902490249024918c918d818cf18cf18c918cc18c918c918c9024918c918c9024918c902490249024918c918c918c918c918c918c918d518d518d518d518d518d518d518d518d5)
 (l 0x1a491a491a491a491a491a491a491a4918f018f018f018f018db18db18db18ed18ed18db18db18db18db18db18db18f00255025502550255025502550255025519021905190b19081917191719081905024c024c024c024c19381938193819381938193819381938193819381938193819381938193819381938193819381938))))
 (n (n (n (l 0x19aa19aa19aa19aa19aa19aa19aa19aa028b028b028b028b028b1aa91aa91aa9028b028b028b1b4b1aa91aa91aa91aa902580258199819981998199819981998199819981998199819981998199819980258025802580258025802580258025802580258025802581a491a491a491a491a491a491a491a491a491a491a491a49)
 (l 0x19bc026119bc19bc19bc19bc19bc19bc19ad19ad19ad025e025e19ad19ad19ad19ad19ad19ad19ad19ad19ad19ad19ad19ad19ad19ad19ad19ad19ad19ad19ad19ad19ad19ad19ad19ad19ad19ad19ad025b025b025b025b19a4199e19a119a7199b199b199b199b199b199b199b199b199b19a719a719a719aa19aa19aa19aa))
 (n (l 0x264026402640264026402640264026419bf19bf19bf19bf19c819c819c519c5026102610261026102610261026119bc19b319b919b019b919b9026119b019b0026119b919b919b919b919b919bc19bc19bc19bc19bc19bc19bc19bc19bc19bc19bc19bc19bc19bc19bc19bc19bc19bc19bc19bc19bc19bc19bc19bc026119bc)
 (l 0x19d719d719d719d719d719d719d719d719d719d719d719d719d719d719d719d70267026702670267026702670267026702670267026719cb19cb19cb19cb19ce19cb19cb19cb19ce19cb19cb19cb19cb19cb19cb19cb19cb19cb19cb19cb19cb02640264026402640264026419c219c219c219c219c219c219c219c219c219c2)))
 (n (n (l 0x19e019e019e019e019e019e019e019e019e019e019e019e019e019e019e019e0026d026d026d026d026d026d026d026d026d026d026d026d19dd19dd19dd19dd19dd19dd19dd19dd19dd19dd19dd19dd19dd19dd19dd19dd19dd19dd19dd19dd026a026a026a026a026a026a026a19da19da19d419d419d119d119d719d719d7)
 (l 0x19f819f819f819f519f519f519f519f519f519f519f519f519f519f519fb19fb19fb19fb19fb19fb19fb19fb19fb19fb19fb19fb19fb19fb19fb19fb19fb19fb0273027302730273027302730273027319f219ef19ef19ef19ef19ef19ef19ef0270027002700270027019e019e019ec19e319e019e019e019e019e019e019e0))
 (n (l 0x1a641a641a641a641a641a641a641a641a641a64027f027f1a641a641a641a641a641a641a641a64027c027c027c027c027c027c027c027c027c1a551a551a551a551a551a551a551a551a551a551a551a551a551a551a551a551a551a551a551a551a551a551a5502760276027602760276027619fe19fe19fe19fe19fe19f8)
 (l 0x1a701a701a701a70027f027f027f027f027f027f027f027f027f027f027f027f027f027f027f027f027f027f027f027f027f027f027f027f027f027f027f1a611a641a5e1a641a5b1a611a611a611a611a581a58027f027f1a581a581a581a581a611a611a611a641a641a641a641a641a641a641a641a641a641a641a641a64))))))
 (n (n (n (n (n (l 0x28502851a761a761a761a761a761a761a761a761a761a761a761a761a761a761a761a761a761a761a761a761a761a761a761a761a761a761a761a761a761a761a761a761a760285028202821a731a731a701a701a701a701a701a671a671a671a671a671a671a670282028202821a701a701a701a701a701a701a701a701a70)
 (l 0x1b4b1aa91aa91aa91938193819381938193819381938193819381938193819381938193819381938028802880288028802880288028802881aa61aa61aa61aa602880288028802880288028802880288028802880288028802881aa31aa31aa30288028802880288028802880288028802880288028802880288028802880288))
 (n (l 0x28b1b4b1b4b1b4b1b4b1b4b1b4b1b4b028b028b028b028b028b028b028b028b028b028b028b028b028b1b4b1b4b1b4b1b4b1b4b1b4b1b4b028b028b028b028b028b028b028b1b4b1b4b1b4b1b4b1b4b1b4b1b4b1b4b1b4b1b4b1b4b1aa91aa91aa91aa91aa91aa9028b028b028b028b028b028b028b028b028b1b4b1b4b1b4b)
 (l 0x1a7c028e028e028e028e028e028e028e028e028e028e028e028e028e1a791a791a791a791a791a791a791a791a791a791a791a791a791a791a791a791a791a7f028b028b028b028b028b028b028b028b028b028b028b028b028b028b028b028b028b028b028b028b028b028b028b028b028b028b028b028b028b028b028b028b)))
 (n (n (l 0x29402940294029402940294029402940294029402940294029402940294029402940294029402941af41af41af41af41af41af41af41af71af71af71af71af71a85029102910291029102911a881a881a881a881a881a881a881a881a881a881a821a821a821a821a8b1a8b1a8b1a8b1a8b1a8b1a8b1a8b1a8b1a8b1a8b1a8b)
 (l 0x2971b181b031b181afd1b091b151b091b151b001b0f1afa1afa029702971b0c1b0902971b091b091b091b091b091afa1b121b121b121b121b121b121b121b121b121b121b121b121b121b121b121b1202971b121b1202971b121b121b121b121b121b121b121b12029702971b12029702971b121b121b121b121b121b121b12))
 (n (l 0x29a029a029a029a029a029a029a029a029a029a029a029a029a029a029a029a029a029a1b511b511b511b511b511b511b511b511b511b511b511b511b511b511b511b511b511b511b511b511b511b510297029702970297029702971b061b061b061b061b061b061b061b061b061b0602970297029702970297029702970297)
 (l 0x2a002a002a002a002a002a002a002a002a002a002a002a002a01b1e1b1e1b1e1b1e1b1e1b1e1b1e1b1e1b1e1b1e1b1e1b1e1b1e1b1e1b1e02a01b1e1b1e1b1e1b1e1b1e1b1e1b1e1b1e1b1e1b1e1b1e1b1e1b1e1b1e1b1e1b1e1b1e1b1e1b1e029a029a029a029a029a029a029a029a029a029a029a029a029a029a029a029a))))
 (n (n (n (l 0x2a302a302a302a302a302a302a302a302a302a302a302a302a302a302a302a302a302a302a302a302a302a302a302a302a302a302a302a302a302a302a31b541b541b541b541b541b541b541b541b5402a002a002a002a002a002a01b211b211b211b211b211b211b211b211b211b2102a002a002a002a002a002a002a002a0)
 (l 0x2a902a902a902a902a902a902a902a902a902a902a902a902a902a902a902a902a902a902a902a902a902a902a902a902a902a902a902a902a602a602a602a602a602a602a602a602a602a602a602a602a602a61b2a1b2a02a602a61b271b241b2402a61b2a1b2a1b2a1b2a1b2a1b2a1b2a1b2a1b2a1b2a02a302a302a302a3))
 (n (l 0x2c41b4e1b4e1b4e1b4e1b4e1b4e1b4e1b4e1b4e1b4e1b4e097b097b02a902a902a902a902a902a902a902a902a902a902a902a902a902a902a902a902a902a902a902a902a902a902a902a902a902a902a902a902a902a902c102c102c102c102c102c102c102c102c102c102c102c102c102c102c1193202a902a902a902a9)
 (l 0x12e40c9f0c9f0c9f0c9f0c9f0c9f0c9f0c9f0c9f0c9f0c9f02ac02ac02ac1b331b331b331b331b331b331b331b331b331b331b331b331b331a041a041a041a041a04191d191d191d191d191d191d191d191d191d191d191d02a902a902a902a902a902a902a902a902a902a902a902a902a902a902a902a902c402c402c402c4)))
 (n (n (l 0x2af02af02af02af02af02af02af02af02af02af02af02af02af02af02af02af02af02af02af02af02af02af02af02af02af02af02af02af02af02af02af02af02af02af0ed00ed00ed00ed00ed00ed00ed00ed00ed00ed00ed00ed00ed00ed00ed00ed00ed00ed00ed00ed00ed00ed00ed00ed00ed00ed002af02af12e412e4)
 (l 0x2b502b50bac0bac0bac0bac0bac0bac0bac0bac0bac0bac0bac0bac0bac0bac0bac0bac0bac0bac0bac0bac0bac0bac0bac0bac0bac0bac0bac0bac0bac0bac02b202b21b361b361b361b361b361b361b360ba90ba90ba90ba90ba90ba90ba90ba90ba90ba90ba90ba90ba90ba90ba90ba90ba90ba90ba90ba90ba90ba90ba9))
 (n (l 0x2bb02bb14161416141614161416141614161416141614161416141614161416141614161416141614161416141614161416141614161416141614161416141602b802b802b802b802b802b802b802b802b802b802b812f912f912f912f912f912f912f912f912f912f912f912f912f912f912f912f912f912f912f912f912f9)
 (l 0x3d203d203d203d203d203d203d203d2133b133b115503bd03bd0948094503cf133e115803c603cc03cc03cc03cc03c003c003c003c003c003c003c003c003cc193219321932193219321932193219321932193219321932193219321932193202be02be02be02be02be02be02be02be02be02be02be02be02be02be17dc17dc)))))
 (n (n (n (n (l 0xf0c0f0c0dda0f0c0f0c115b115b1506134113411341134113410fb70fba03c9096309630963096309630963096309630963096308d308d003c003c003cf03cf03cf03cf03cf03cf03cf03cf03cf03cf03cf03cf03cf03cf03cf03cf03cf03cf03cf03cf03cf03cf03cf03cf03cf03cf03cf03cf03cf0ce103cc03c003c01155)
 (l 0x468045f0fd818ae18ae1347046e046e046e046e046e046e046e046e046e046e046e046e046e046e046e046e1347046e046e046e046e046e046e046e046e046e03cc03cc03cf03c3133e133b03cf03cf03cf03cf03cf03d203cf03cf03d203cf03cf03cf03cf03cf03cf03cf03d203cf03cf03cf03cf03cf03cf03cf03cf03cf))
 (n (l 0x4ad04ad04ad04ad04ad04ad04ad04ad04ad04ad04ad04ad04ad04ad04ad04ad04ad04ad04ad04ad04ad04ad04ad04ad04ad04ad04ad04ad04ad04ad04ad04ad1428142814280de908d60de60de60bc70bc704aa04aa04aa04aa04aa04aa04aa04aa04aa04aa04aa04aa04aa04aa04aa04aa04aa04aa04aa04aa04aa04aa04aa)
 (l 0x4b304b304b304b304b304b304b304b304b304b304b304b304b304b304b304b6116d116d116d116d116d116d04b004b004b004b004b004b004b004b004b004b004b004b004b004b004b004b004b004b004b004b004b004b004b004b004b004b004b004b004b004b004b004b004b004b01170117011701170117004b304b304b3)))
 (n (n (l 0x100510081005100509bd04bc04b904b904b904b904b904bf04b904bf04b904bf04b904bf04b904bf04b904bf04b904bf04b904bf04b904bf04b904bf04b904bf04b904bf04b904bf04b904bf04b904bf04b904bf04b904bf04b304b304b304b304b304b304b304b304b304b304b304b304b304b304b304b304b304b304b304b3)
 (l 0x4ce04ce04ce04ce04ce04ce04ce04ce04cb04cb04cb04cb04cb04cb04cb04cb04ce04ce04ce04ce04ce04ce04ce04ce04cb04cb04cb04cb04cb04cb04cb04cb10051008100510081005100804b904bf04b904bf04b904bf04b904bf04b904bf04b904bf04b904bf04b904bf04b904bf04b904bf04b904bf04b904bf04b904bf))
 (n (l 0x504050106cf06cf0504050106d206d204ec06d506c306c606c904fb04fe06cc051605160519051c04d404dd04dd04dd04e004dd04dd04dd04dd04dd04da04da04e306b4050d051006ae0504050404e904f804f806c0050a06db06d804f506c00b5804d104d104d104d104d10513051306b706ba06ba06bd04e906b106ae06ae)
 (l 0x18b1173415211521151e14f4135c117c117c11790dfe0dfe0dfe0dfe0be20be20af80af80af809e109c00540075c0543053d05400540054005400540054005400bd00df80df80df50df80df80df80df80bd60df80df50d0b0d0e0bd90bd30bd30bd30bd30aef0aef0aef0aef0af50af20bdc04ef04f2050704e904e904e904e6))))
 (n (n (n (l 0xbfa0bfa0bf70e070d110b010b040561056105610561055e0567056a05670567055e05580567056706f9056d05550567054c06f6054c0567054c06f006e70552054c054c05670567056705670567055b054c06ed0567054c06f3056705670567055e055e056705670567055e06ea054c0564054f06e7054c06ea0567054f054f)
 (l 0x576057605760576057605760702070207020702070207020702070207020702057c057c057c057c070507050705070507050705070507050705070507050705057306fc06ff06ff06fc05730573057305730573057006fc06ff117f117f117f100e0f1b0f180e040bf10bee0bf70bf70bf70bf70bfa0bf10bf10bf10bf10bf4))
 (n (l 0x57f057f057f057f057f057f0582057f0582058205820582058205820582070b0582070b058205820585058505850582058205820582058205820582058205820582058205820582057f057f0708070805820582057f057f057f057f05820582057f058505820582058205880588057f05820582058205820582058205820582)
 (l 0x711058b058b0711071107110711058b058b0711058b058b058b058b0711058b0597059a0711058b0711058b058b058e0711058b058e07110711058b058b058e07110711058b07110bfd0bfd0bfd0bfd0bfd0bfd0bfd0bfd0bfd0bfd0bfd0bfd0b0a0b0a0b0a0b0a0b0a0b0a0b0a0b0a0b0a057f057f057f0708057f05820582)))
 (n (n (l 0x58b058e07110714058b058b058b058b058b058b058b058b058b058b058b058b058b0711058b058b058b058b058b0711058b058b058e0711058e058b058b058e058b058b058e058b058b058b07110711058b058b058b058b0711071107110711058b058b058b0591059107110591071707110711071107110711058e0711058e)
 (l 0x58b058b0711058b058b058b058b058b058b058b0711058b058b058b0711058b058b058b058b058b058b058b058b058b058b058b058e058e07110711058e058e07110711058e058e058b058b058b058b058b058b058e058e058b058b058e058e058b058b058e058e07140714058e058b07110711058b058b0711071107110711))
 (n (l 0x58b058b058b058b058e058e058e058e058b058b058b058b058b058b058b058b058b058b058b058b058b058b058b058b058b058b058b058b058b058b058b058b058b058b058b058b058b058b058b058b0711058b058b058b058b058b058b058b058b058b058b058b058b058b058b058b058e058e058e058e058b058b058b058b)
 (l 0x59d059d059d059d059d059d05a305a3059d059d059d059d081f081f059d059d059d059d059d059d059d071a059d059d059d059d059d059d05a605a905a605a9059d059d059d059d059d059d0b0d059d0c000c000c000c000c000c000c000c000c000c000c000c000c000c00058b058b0594058b058e058e058e058e058b058b)))))))

/-- Rows 320..383 of `propsVectorsIndex`. -/
def propsVectorsIndex_rows5 : Tree :=
 (n (n (n (n (n (n (l 0x5ac05ac05ac05ac05ac05ac05ac05ac05ac05ac05ac05ac05ac05ac05ac05ac05ac05ac05ac05ac0b0d0b0d0b0d0c060b0d059d059d059d059d059d059d059d059d059d059d059d059d059d059d059d059d059d059d059d059d059d059d059d059d059d059d059d059d059d059d059d059d059d059d059d059d0822082505a0)
 (l 0x72c072c072c072c072c072c072c072c072c072c072c072c072c072c072c072c072c072c072c072c0d890c6f0c6f0c6f0c6f0c6f0c6f0c6f0c6f0c6f0c6f0c6f0c6f0c6f0c6f0c6f0c6f0c6f0c6f0c6f0c6f05b2072307230723072307230723072307230723072305ac05ac05ac05ac05ac05ac05ac05ac05ac05ac05ac05ac))
 (n (l 0x72f072f05bb05bb072f072f072f072f072f072f072f072f072f072f072f072f072f072f072f072f072c072c072c072c072c072c072c072c072c072c072c072c072c072c072c072c05b805b805b805b8072c072c072c072c072c072c072c072c072c072c072c072c05b805b805b805b805b805b805b805b805b805b805b805b5)
 (l 0x5c405c4073507350735073205be05be073505c405be07320735073505be05be05be05be0735073805c405c40735073505be05be05be05be0735073805c405c40735073505c405c405c405c405be05be05c105c1073207320732073207320732073205be073507350c090c090c090c090c090c090c090c090c090c09072f072f)))
 (n (n (l 0x5c705ca05d005ca073b074105ca05ca05ca05ca073b05ca05ca0747074a05d005d305d305d305d30c0c0c8a0c8a0c0f0c0f0c0c0c0c0c0c0b160b160b160b160b160b160b160b16073205be05be05c405c405c405c405c405c405be073207350732073505be05be05be05be05be05be05be05be05be05be05be05be05be05be)
 (l 0x8280828082808280828082808280828082808280828082805ca05ca05ca05ca05ca074d05ca074d05ca05ca05ca05ca05cd05d305d305d005ca05ca05ca05ca05ca05ca05ca05ca05d005d005ca05ca05ca05d005ca05ca05ca05d005ca05ca05d005d005ca05d005cd073e05d6073e05cd05cd0b190e130c150c150d920d92))
 (n (l 0x5dc05dc05dc05dc05dc05dc05dc05dc05dc05dc05dc05dc05dc05dc05dc05dc05dc05dc05dc05dc0ec70e100c180c180c1b0c180c180c180c180c180c180c180c180c180b190b19074a05d9074a073b05ca073b073b0744073b05d00741073b074d05d9074a074d05d005ca05ca05ca05ca05ca05ca05ca05ca05ca05ca05ca)
 (l 0x5df05df05df05ee05ee05df05df05df05df05df05df05df05df05df05df13e605df05df05df05df05df05df05ee05df05df05df05df05df05df05ee05df05ee05df05ee05e805e805ee05e805f705f713e913e905f405f405df05df13e605eb05eb05f405eb152a05df05df05df05df05df05df05df05df13e613e613e605df))))
 (n (n (n (l 0x75007500c1e0c210c1e0c210c1e0c210c1e0c210c1e0c210c1e0c210c1e0c2105e805e805e805f405f105e205df1368136805e505e505e505e505df05df05df12de05df13e613e613e605df05df05df05df13e605df13e605df05df05df05df05ee05df05df05ee05df05df05df05df05df05df075305df05df05df05df05df)
 (l 0x621062106210621061b061b061b061b061b061b061b061806180618061806180618061806180618061806180618061813e605df05df05df05df05df05df05df05df05df05df05df05df05df05df13e605df05df05df05df05df05df05df05df05df05df05df05df05df05df05ee05df07500750075007500750075007500750))
 (n (l 0x6180618061806180618061806180618061806180618061806180618061806180618061806180618061506150615061506150615061e061e061e061e061e061e061e061e061e061e061e061e061e061e061e061e061e061e061e061e061e061e061e061e061e061e061e061e061e061e0612060f061e06180621062106210621)
 (l 0x618061e0621061b0618061e0621061b0618061e0621061b0618061e0618061e0618061e0618061e0618061e0618061e0618061e0621061b0618061e0621061b0618061e0621061b0618061e0621061b0618061e0621061b0618061e0621061b0618061e0621061b0618061e0621061b06180618061806180618061806180618)))
 (n (n (l 0x61b0618061e061b0618061e0618061e0618061e0618061e0618061e0618061e0618061e0621061b0621061b0618061e0618061e0618061e136b136b136b136b136b136b136b136b136b136b136b136b136b136b0618061e0618061e0621061b0618061e0621061b0618061e0618061e0621061b0618061e0618061e0621061b)
 (l 0x6180618061806180618061806180618061806180618061e061e061e061e061e061e061e061e061e061e061e061e061e061e061e061e061e061b061b061b061b061b061b061b061b061b061806180618061806180618061806180618061806180618061806180618061806180618061806180618061806180621061b0618061e))
 (n (l 0x618061b0618061b06180618061b061b0618061806180618061806180618061806180618061806180618061806180618061806180618061806180618061b06180618061806180618061b061806180618061b061b0618061b06180618061b0618061b06180618061b06180618061b0618061b0618061b061b0618061806180618)
 (l 0x61e061e061e061e061e061e061e061e061e061e061e061e061e061e061e061e061e061e061e061e061e061e061e061e0621061b061b061b061b061b061b061b061b061b061b061b061b061b061b061b061b061b061b061b061b061b061b061b061b061b061b061b061b061b061b061b061b061b061b061b0618061806180618)))))
 (n (n (n (n (l 0x888087f088808970897088b088b0885173a173a152d152d152d152d152d152d152d101a101a101a0624062406240624061e061e061e061e061e061e061e061e061e061e061e062106210621062106210621062106210621062106210621062106210621062106210621062106210621061e061e061e061e061e061e061e061e)
 (l 0x630062d063306360630062d063306360630062d063306360630062d0633062d0633062d0633062d0633062d063306360630062d063306360630062d063306360630062d0633062d063306360630062d0633062d063306360630062d0633062d0633062d0633062d0633062d063306330888087f0888087f0888087f0888087f))
 (n (l 0x71d071d071d071d071d071d071d071d071d071d071d071d071d071d071d071d071d071d071d071d071d071d071d071d072007200720072007200720072007200720072007200720072007200720072007200720072007200630062d063306360630062d063306360630062d063306360630062d063306360630062d06330636)
 (l 0x72c072c072c072c072c072c072c072c072c072c072c072c072307230723072307230723072307230723072307230723072307230723072307260726072607260726072607260726072607260726072607260729072607260726072607260726072607260726072607260726071d071d071d071d071d071d071d071d071d071d)))
 (n (n (l 0x76e076e076e076e076e076b08dc08e508df08e208e80c7807560756075607560756075607560756075607560756075607560756075607560756075607560756075607560756075607560756075607560756075607560756072c072c072c072c072c072c072c072c072c072c072c072c072c072c072c072c072c072c072c072c)
 (l 0x8f108f408f108f40906083108f108f408f708fa08f708fa08f108f408f108f40834091b0837082b0906090008fd077108eb08eb076b076b076b076b076b076b076b076b076b076b076b076b076b076b076b076b076b076b076b076b076b076b076b076b076b076b076b076b076b076b076b076b076b08ee076e076e076e076e))
 (n (l 0x7aa07aa07aa07aa07aa07aa07aa07aa07aa07aa07aa07aa07aa07aa07aa07aa07aa07b007b007b007b007b007b00798079e079b07740795077a07ad07ad07ad07ad07ad07ad07ad07ad07ad07ad07ad07ad07ad07ad07ad07ad07ad07ad07ad07ad07b307b307b307b307b307b30777090f090f0912090908f108f408f108f4)
 (l 0x83a083a09510951095109510834083408340834083408340834083408340831081c12d812d812d812d812d808190819081908190819081908190819081908190819081908190819081908190819081908190819081908190819081908190819081908190819081908190819081908190c7b079507740795077a07aa07aa07aa))))
 (n (n (n (l 0x84c084f084c084f084c084c0852084c0852084c0852084c0852084c08520cae083d083d08400840083d08400840083d08400840083d08400840083d08400840083d083d083d083d083d083d0840083d0840083d0840083d08430840083d084008d90b5b0ca80cab0c8d0b3d0b3d0b3d0903082e09150918091809180918090c)
 (l 0x84c0852084c084c084c084c084c084c0852084c0852084c0852084c084c084c084c084c084f084f084c084f084f084c084f084f084c084f084f084c084f084f084c084c084c084c084c084c084f084c084f084c084f084c0852084f084c084f084c084f084c084f084c084f084c084f084c084f084c084f084c084f084c084f))
 (n (l 0x85e085e085e085e085e085e085e085e085e085e085e085e085e085e085e0861085e085e085e085e085e085e085e085e085e085e085e085e085e085e085e085e085e085e085e085e085e085e085e085e085e085e085e085e085e085e085e085e0c960858085509240921084f084f084f084f08520852084f084c084c084c084c)
 (l 0x86d086d086d086d0d950d950d950d95092d092d092d092d092d092d092d092d092d092d092d092d08640eca0d9b0d9b086a086a086a086a086a086a086a086a086a086a086a086a086a086a086a086a086a086a086a086a086a086a086a086a086a086a086a086a085e085e085e085e085e085e085e085e085e085e085e085e)))
 (n (n (l 0x870087008700870093909390939093909390d9e0d9e0d9e0d9e087008700870087008700870093609360936093609360936093609360936093609360936093609360936093609361ab2086d086d086d086d086d086d086d086d086d086d086d086d086d086d086d086d086d086d086d086d086d086d086d086d086d086d086d)
 (l 0x87308730873087308730873087308730873087308730873087308730873087308730873087308730873087308730873087308730873087308730873087308730d9e0d9e087008700870087008700870087008700870087008700870087008700870087008700870087008700870087008700870087008700870087008700870))
 (n (l 0xecd0ecd0ecd0ecd0ecd0ecd0ecd0ecd0ecd0ecd0ecd0ecd0ecd0ecd0ecd0ecd0ecd0ecd0ecd0ecd0ecd0ecd087608760876087608760876087608760876087608760876087608760876087608760876087608760876087608760876087608760876087608760876087608760876087609360936093609360936093609360936)
 (l 0x87c08790879087c087c0879087c0879087c0879087908790879087908790879087908790879087c087c0879087c0879087c087c0879087908790879087908790879087908790879087908790879087908790879087908790879087908790879087908790879087908790879087908790879087908790879113d113d113d113d))))))
 (n (n (n (n (n (l 0x12bd12bd12bd12bd131d131d131d131d092d092d092d092d092d092d092d092d092d092d092d092d092d092d092d092d092d092d092d092d092d092d092d092d092d092d092d092d092d092d092d092d0c9f0c9f0c9f0c9f0c9f0c9f0c9f0c9f0c9f0c9f0c9f0c9f0c9f0c9f0c9f0c9f14e514e50879087908790879087c087c)
 (l 0x93009300930093009300930093009300930093009300930093009300930093009300930093309300933093009300930093009300930093009300930093009300930093009300930093009300930093009300930093009300c990c990c990c990c990c990c990c990c990c990c990c990c990c990c990d9512bd12bd12bd12bd))
 (n (l 0x9a809a809a809a209960999099909ab099909990993099909990999099909b70d9e09360936093609360936093609360936093609360936093609360936093609360936093609360936093609360936093609360936093609360936093609360c990c990c990c990c990c990c990c990c990c990c990c990c990c990c990930)
 (l 0x9c309c309c309c309c309c309c309c309c309c309c309c309c309c309c309c309b409b4099c09a5099c09a5098a0993098a0993098a0996099309930993099309930993099309930993099309ae09ae09ae09ae09ae09ae09ae09ae09ae09ae099309930993099309930993098a098a099309930993099f099309ab09a809a8)))
 (n (n (l 0x9c909c909c909c909c909c909c909c909c909c909c909c909c909c909c909c909c609c609c609c609c609c609c609c609c609c609c609c609c609c609c609c609c609c609c609c609c609c609c609c609c609c609c609c609c609c609c609c609c309c309c309c309c309c309c309c309c309c309c309c309c309c309c309c3)
 (l 0x9d509d509d509d509d509d509d509d509d509d509d509d509d509d509d509d509cc09cc09d209d209d209d209d209d209d209d209d209d209d209d209d209d209d209d209d209d209d209d209d209d209d209d209d209d209d209d209d209d209c909c909c909c909c909c909c909c909c909c909c909c909c909c909c909c9))
 (n (l 0x9d509d509d509d509d509d509d509d509d509d509d509d509d509d509d509d509d209d209d209d209d209d209d209d209d209d209d209d209d209d209d209d209d209d209d209d209d209d209d209d209d209d209d209d209d209d209d209d209cf09cf09d509d509d509d509d509d509d509d509d509d509d509d509d509d5)
 (l 0x9db09db09db09db09db09db09db09db09db09db09db09db09db09db09db09db09db09db09db09d809db09db09db09db09db09db09db09db09db09db09db09db09db09db09db09db09db09db09db09db09db09db09db09db09db09db09db09d809d509d509d509d509d509d509d509d509d509d509d509d509d509d509d509d5))))
 (n (n (n (l 0xa650a650a680a680a680a680a680a680a5f0a5f0a5f0a5f0a6e0a6e0b610b610b610b610b610b610b610b610b610b610fff0fe70fe70ff90ff90fed0a5c0a620a590a560fe70fe70fe70a560a650a560a560a560a560a620ff60a680a680fff0a680a6b0a680a680a680fff0a680a6809db09db09db09db09db09db09db09db)
 (l 0xa7d0a7d0a7d0a7d0a7d0a7d0a7d0a7d0a7d0a7d0a7d0a7d0a7d0a7d0a7d0a7d0df20a7d0a7d0a7d0a7d0a7d0a7d0a7d0a680a680a680a680a680a680a680a680a680a680a680a680a680a680a680a680a680a680a680a680a680a680a680a680a680a680a680a680a680a680a680a680fe70fe70fff0fff0fff0fff0a560a56))
 (n (l 0xa830a830a830a830a830a830a830a830a830a830a830a830a830a830a830a830a830a830a830a830a830a830a830a830a830a830a830a830a7d0a7d0a7d0a7d0a7d0a7d0a7d0a7d0a7d0a7d0a7d0a7d0a7d0a7d0a7d0a7d0df20a7d0a7d0a7d0a7d0a7d0a7d0a7d0a7d0a7d0a7d0a7d0a7d0a7d0a7d0a7d0a7d0a7d0a7d0a7d)
 (l 0xa890a890a890a890a890a890a890a890a890a890a890a890a890a890a890a890a890a890a890a890a890a890a890a890a890a890a8911731176117611761176117611761176117611760a890a890a890a890a890a890a890a890a8c0a860a890a890a890a890a890a890a890a890a890a890a890a890a890a830a830a830a83)))
 (n (n (l 0xaa10abf0aaa0aaa0ac20ac20ac20ac20ac20ac20ac20ac20ac20ac20ac20ac20ac20ac20ac20ac50ac50ac20ac20ac20a9e0a9e0a9e0a9e0a9e0a9e0a9e0a9e0a9e0a9e0a9e0a9e0a9e0a9e0a9e0a9e0a9e0a9e0a9e0a9e0a9e0a9e0a9e0a9e0a9e0a9e0a9e0a9e0a9e0a9e0a9e0a9e0a890a890a890a890a890a890a890a89)
 (l 0xae30ae30ae30ae30ae30ae30ae30ae30ae30ae30ae30ae30ae30ae30ae30ae30ae30ace0ace0ae30ae30ae30ae30ae30ac20ac20ac20ac20ac20ac20ac20ac20ac20ac20ac20ac20ac20ac20ac20ac20ac20ac20ac20ac20ac20ac20ac20ac20ac20ac20ac20ac20ac20ac20ac20ac20abf0abf0aa10aa10aa10aa10aa10aa1))
 (n (l 0xb0d0b0d0b0d0b0d0b0d0b0d0b0d0b100b0d0b0d0b0d0b0d0b0d0b0d0b0d0b0d0ae30ae30ae30ae30ae30ae30ae30ae30ae30ae30ae30ae30ae30ae30ae30ae30ae30ae30ae30ae30ae30ae30ae30ae30ae30ae30ae30ae30ae60ae30ae30ae30ae30ae30ae30ae30ae30ae30ae30ae30ae30ae30ae30ae30ae30ae30ae30ae3)
 (l 0xb2e0b2e0b2e0b2e0b2e0b2e0b2e0b2e0b2e0b2e0b2e0b2e0b2e0b2e0b2e0b2e0b1c0b1c0b1c0b1c0b1c0b1c0b1c0b1c0b1c0b1c0b1c0b1c0b1c0b1c0b1c0b1c0b1c0b1c0b1c0b1c0b1c0b1c0b1c0b1c0b1c0b1c0b1c0b1c0b1c0b1c0b1c0b1c0c060c060c060c060c060b0d0b0d0b0d0b0d0b0d0b0d0b0d0b0d0b0d0b0d0b0d)))))
 (n (n (n (n (l 0xb400b400b400b400b400b400b400b400b400b400b400b400b400b400b400b400b340b340b340b340b340b340b340b340b340b340b340b340b340b340b340b340b340b340b340b340b340b340b340b340b340b340b340b340b340b340b340b340b2e0b2e0b2e0b2e0b2e0b2e0b2e0b2e0b2e0b2e0b2e0b2e0b2e0b2e0b2e0b2e)
 (l 0xb460b460b460b461b301b301b301b301b301b301b301b301b301b300b430b430b430b430b430b430b430b430b430b430b430b430b430b430b430b430b430b430b430b430b430b430b430b430b430b430b430b430b430b430b430b430b430b431b2d1b2d1b2d1b2d1b2d13ec13ec13ec0b400b400b400b400b400b400b400b40))
 (n (l 0xb4c0b4c0b4c0b4c0b4c0b4c0b4c0b4c0c9c0c9c0b4c0b4c0b460b460b460b460b460b460b460b460b460b460b460b460b460b460b460b460b460b460b460b460b460b460b460b460b460b460b460b460b460b460b460b460b460b460b490b460b460b460b460b460b460b460b460b460b460b460b460b460b460b460b460b46)
 (l 0xb760b760b760b760d260d260b790b790b790b790b790b7915300b700b700b700b700b700b700b700b700b700b700b700b700b700b700b700b700b700b700b700b700b700b700b700b700b700b700b700b700b700b700b700b4c0b4c0b4c0b4c0b4c0b4c0b4c0b4c0b4c0b4c0b4c0c9c0b4c0b4c0b4c0b4c0b4c0b4c0b4c0b4c)))
 (n (n (l 0xb790b790b790b790b790b790b790b790b790b790b790b790b790b790b790b790b790b790b790b790b790b790b790b790d740d740d740d740d740d740d740d740d740d740d740d740d740d740d740d740d230d230b760b760b760b760b760b760b760b760b760b760b760b760b760b760b760b760b760b760b760b760b760b76)
 (l 0xb7f0b7f0b7f0b7f0b7f0b850b850b850b850b850b910b880b880b880b940b940b940b8e0b820b8b0b8b0b8b0b8b0b8b0b7c0b7c0b7c0b7c0b7c0b7c0b7c0b7c0b7c0b7c0b7c0b7c0b7c0b7c0b7c0b7c0b7c0b7c0b7c0b7c0b7c0b7c0b7c0b7c0b7c0b7c0b7c0b7c0b7c0b7c0b7c0b7c0b790b790b790b790b790b790b790b79))
 (n (l 0xb880b880b880b880b880b880b880b880b940b940b940b940b940b940b940b880b880b940b940b940b8b0b8b0b880b880b880b880b880b880b880b880b880b880b880b880b880b880b880b880b880b880b880b880b880b880b880b880b880b880b880b880b880b880b880b880b880b880b940b940b940b940b940b7f0b7f0b7f)
 (l 0xb880b880b880b880b880b880b880b880b880b880b880b880b880b880b880b880b880b880b880b880b880b880b880b880b880b880b880b8b0b8b0b8b0b8b0b8b0b8b0b880b880b880b880b880b880b880b880b880b880b880b880b880b940b940b940b940b880b880b880b880b880b880b880b880b880b880b880b880b880b88))))
 (n (n (n (l 0xb970ba00ba00ba00ba00ba00ba00ba00ba00ba00ba00ba00ba00ba00ba00ba00ba00ba00ba00ba00ba00ba00ba00ba00ba00ba00b9d0b9d0b9d0b9d0b9d0b9d0b970b9d0b9d0b9d0b9d0b9d0b9d0b9d0b9d0b9d0b9d0b9d0b9d0b9d0b9d0b9d0b9d0b9d0b9d0b9d0b9d0b9d0b9d0b9d0b9d0b9d0b970ba0173d173d0b880b88)
 (l 0xb9d0b9d0b9d0b9d0b9d0b9d0b9d0b9d0b9d0b9d0b9d0b9d0b9d0b9d0b970ba00ba00ba00ba00ba00ba00ba00ba00ba00ba00ba00ba00ba00ba00ba00ba00ba00ba00ba00ba00ba00b9d0b9d0b9d0b9d0b9d0b9d0b970b9d0b9d0b9d0b9d0b9d0b9d0b9d0b9d0b9d0b9d0b9d0b9d0b9d0b9d0b9d0b9d0b9d0b9d0b9d0b9d0b9d))
 (n (l 0xba00ba00ba00ba00ba00ba00ba00ba00ba00ba00ba00ba00ba00ba00ba00ba00ba00ba00ba00ba00ba00ba00ba00ba00b9a0b9a0b9a0b9a0b9a0b9a0b9a0b9a0b9a0b9a0b9a0b9a0b9a0b9a0b9a0b9a0b9a0b9a0b9a0b9a0b9a0b9a0b9a0b9a0b9a0b9a0b9a0b9a0b9a0b9a0b9a0b9a0b9d0b9d0b9d0b9d0b9d0b9d0b9d0b9d)
 (l 0xb9d0b9d0b9d0b9d0b9d0b9d0b9d0b9d0b9d0b9d0b9d0b9d0b9d0b9d0ba00ba00ba00ba00ba00ba00ba00ba00ba00ba00ba00ba00ba00ba00ba00ba00ba00ba00ba00ba00ba00ba00ba00ba00ba00ba00b9d0b9d0b9d0b9d0b9d0b9d0b9d0b9d0b9d0b9d0b9d0b9d0b9d0b9d0b9d0b9d0b9d0b9d0b9d0b9d0b9d0b9d0ba00ba0)))
 (n (n (l 0xba90ba90ba90ba90ba90ba90ba90ba90ba90ba90ba90ba90ba90ba90ba90ba90ba30ba30ba30ba30ba30ba30ba30ba30ba30ba30ba30ba30ba30ba30ba30ba30ba30ba30ba30ba30ba30ba30ba30ba30ba30ba30ba30ba30ba30ba30ba30ba30ba00ba00ba00ba00b9d0b9d0b9d0b9d0b9d0b9d0b9d0b9d0b9d0b9d0b9d0b9d)
 (l 0xc060c060c060c060c060c060c060c060c060c060c060c060c060c060c060c060bac0bac0bac0bac0bac0bac0bac0bac0bac0bac0bac0bac0bac0bac0bac0bac0bac0bac0bac0bac0bac0bac0bac0bac0bac0bac0bac0bac0bac0bac0bac0bac0ba90ba90ba90ba90ba90ba90ba90ba90ba90ba90ba90ba90ba90ba90ba90ba9))
 (n (l 0xe100e100e100e100ec40e100d1d0d1d0d1a0d1a0d1a0d1a0d1a0d1a0c120c120c120c120c180c180c180c180c180c180f240f240f240f240e0a0e0a0e0a0e0a0e0a0e0a0e0a0e0a0e0a0e0a0e0a0d170d140c030c030c030c030c030c030c030c030c030c030c030c030c030c030c030c060c030c060c060c060c060c060c06)
 (l 0xc510c510c510c510c510c510c510c510c510c510c510c511029102c113411370c7e0c810c7e0c810c7e0c810c4e0c4e0c4e0c4e0c4e0c4e0c4e0c4e0c4e0c4e0c4e0c4e0c4e0c4e0c4e0c4e0c4e0c4e13741374142e1026142e0f360f360f360f360e1c0e1f0e190e190e190e190e1912ae12ae10140e100e100e0d0e100e0d)))))))

/-- Rows 384..447 of `propsVectorsIndex`. -/
def propsVectorsIndex_rows6 : Tree :=
 (n (n (n (n (n (n (l 0xc600c5d0c600c5d0c600c5d0c600c5d0c600c840c870c5d0c600c5a0c5a0c5a0c540c540c540c540c540c540c540c540c540c540c570c570c540c540c540c540c540c540c540c540c540c540c540c540c540c540c540c540c540c540c540c540c540c540c540c540c540c540c540c540c540c540c540c540c510c510c510c51)
 (l 0xc5a0c5a0c5a0c5a0c5a0c5a0c5a0c5a0c5a0c5a0c5a0c5a0c5a0c5a0c5a0c5a0c5d0c600c5d0c600c5a0c5a0c5a0c5a0c5a0c5a0c5a0c5a0c5a0c5a0c5a0c5a0c5a0c5a0c5a0c5a0c5a0c5a0c5a0c5a0c5a0c5a0c5a0c5a0c5a0c5a0c5a0c5a0c5a0c5a0c5a0c5a0c5a0c5a0c5a0c5d0c600c5d0c600c5d0c600c5d0c600c5d))
 (n (l 0xc630c630c630c630c630c630c630c630c630c630c630c630c630c630c630c630c630c630c630c630c630c630c630c630c630c630c630c630c630c630c630c630c630c630c630c690c630c630c630c630c630c630c630c630c630c630c630c630c5a0c5a0c5d0c600c5a0c5a0c5a0c5a0c5a0c5a0c5a0c5a0c5a0c5a0c5a0c5a)
 (l 0xc9f0c9f0c9f0c9f0c9f0c9f0c9f0c9f0c9f0c9f0c9f0c9f0c9f0c9f0c9f0c9f0c9f0c9f0c9f0c9f0c9f0c9f0c9f0c9f0c9f0c9f0c9f0c9f0c630c630c630c660c630c630c630c630c630c630c630c630c630c630c630c630c630c630c630c630c630c630c630c630c630c630c630c630c630c630c630c630c630c690c690c69)))
 (n (n (l 0xd440d440d440d440d440d440d440d440d440d440d440d440d440d440d440d440d440d440d440d440d440d440d440d440d440d440d440d4412b112db12db10141014101410141014101410141014101410140f270e100e100e0d0e0d0e0d0e0d0ec40ec40e0d0e0d0e100e0d0e0d0e0d0e0d0e0d0d8f0d200c9f0c9f0c9f0c9f)
 (l 0xe250e250e250e220e250e250e250e250e250e250e250e250e250e250e250e250d530d4d0d4d0d4d0d4d0d4d0d590d590d590d590d500d500d5c0d5c0d5c0d5c0d560d5c0d5c0d5c0d5c0d5c0d5c0d5c0d5c0d5c0d5c0d5c0d560d5c0d5c0d5c0d470d4a0d4a0d4a0d4a0d4a0d530d530d530d530d530d530d440d440d440d44))
 (n (l 0xd530d530d530d530d530d530d530d530d530d530d530d530d530d530d530d530d530d530d530d530d530d530d530d530d530d530d530d530d500d500d500d5c0d5c0d5c0d5c0d5c0d5c0d5c0d5c0d5c0d5c0d5c0d5c0d5c0d5c0d560d5c0d5c0d5c0d5c0d5c0d5c0d5c0d5c0d5c0d5c0d5c0d5c0d5c0d5c0e250e250e250e25)
 (l 0xd650d650d650d650d650d650d650d650d650d650d650d650d650d650d650d650d650d650d650d650d650d650d650d650d650d650d650d65102f102f102f114011400f390f390f390f390f390f390f390e280e280e280e280e280e280d5f0d5f0d5f0d5f0d5f0d5f0d620d620d620d5f0d5f0d5f0d5f0d5f0d530d530d530d53))))
 (n (n (n (l 0xd740d740d740d740d740d740d740d740d740d740d740d740d740d740d740d740d740d740d740d740d740d740d740d740d740d740d740d740d6b0d6b0d6b0d6b0d6b0d6b0d6b0d6b0d6b0d6b0d6b0d6b0d6b0d6b0d6b0d6b0d6b0d6b0d6b0d6b0d6b0d6b0d6b0d6b0d6b0d6b0d6b0d6b0d6b0d6b0d6b0d6b0d650d650d650d65)
 (l 0xd8c0d8c0d8c0d8c0d8c0d8c0d8c0d8c0d8c0d8c0d8c0d8c0d8c0d8c0d8c0d8c0d8c0d8c0d8c0d8c0d8c0d8c0d8c0d8c0d8c0d8c0d8c0d8c0d800d800d800d800d800d800d800d800d800d800d800d800d800d800d800d800d800d800d800d800d800d800d800d800d800d800d800d800d800d800d800d800d740d740d740d74))
 (n (l 0xe310e310e310e310e310e310e310e340e340e340e340e340e340e340e340e340e340e340e340e340e340e340e340e340e340e340e340e340e2e0e2e0e2e0e2e0e2e0e2e0e2e0e2e0e2e0e2e0e2e0e2e0e2e0e2e0e2e0e2e0e2e0e2e0e2e0e2e0e2e0e2e0e2e0e2e0e2e0e2e0e2e0e2e0e2e0e2e0e2e0e2e0d8c0d8c0d8c0d8c)
 (l 0x103810381038103810381038103810381038103810381038103b103b103b103b103b0f3c0f3c0f3c0f3c0f3c0f3c0f3c0e460e460ef40ef40e340e340e340e340e340e340e340e340e340e340e340e340e340e340e340e340e340e340e340e340e340e340e340e340e340e340e340e340e340e340e340e340e310e310e310e31)))
 (n (n (l 0xe610e610e610e610e610e610e610e610e610e610e610e610e610e610e610e610e610e610e610e610e610e610e610e610e610e610e610e610e520e550e520e550e520e550e520e550e520e550e520e550e520e550e520e550e520e550e520e550e520e550e520e550e520e550e520e550e520e550e520e551038103810381038)
 (l 0x103e0f3f0f3f0f3f0f3f0e7f0e7f0e7f0e7f0e7f0e7f0e7f0e7f0e7f0e7f0e7f0e7f0e7f0e7f0e7f0eee0eee0eee0eee0eee0eee0eee0eee0e670e670e670e670e670e670e670e670e670e670e670e670e670e670e670e670e670e670e670e670e670e670e670e670e670e670e670e670e670e670e670e670e610e610e610e61))
 (n (l 0xe910e910e910e910e910e910e910e910e910e910e910e910e910e910e910e910e910e910e910e910e910e910e910e910e910e910e910e910e880e880e880e880e880e880e880e880e880e880e880e880e880e880e880e880e880e880e880e880e880e880e880e880e880e880e880e880e880e880e880e88103e103e103e103e)
 (l 0xe9a0e970e970e970e970e970e970e970e970e970e970e970e970e970e970e970e970e970e970e970e970e970e970e970e970e970e970e970e940e9a0e9a0e9a0e9a0e9a0e9a0e9a0e9a0e9a0e9a0e9a0e9a0e9a0e9a0e9a0e9a0e9a0e9a0e9a0e9a0e9a0e9a0e9a0e9a0e9a0e9a0e9a0e9a0e9a0e9a0e9a0e910e910e910e91)))))
 (n (n (n (n (l 0xeb50eb50eb50eb50eb50eb50eb50eb50eb50eb50eb50eb50eb50eb50eb50eb50ea90eb50eb50eb50eb50eac0eb50eb50eb50ea90eb50eb5104110410ea30ea3104110531044104a0ea60e9d0ea00ea00ea00ea00ea00ea00ea00ea00ea30ea30ea30ea30ea30ea30ea30ea30ea30ea30ea30ea30ea30ea30e9a0e9a0e9a0e9a)
 (l 0xed00ed00ed00ed00ed00ed00ed00ed00ed00ed00ed00ed00ed00ed00ed00ed00ed00ed00ed00ed00ed00ed00ed00ed00ed00ed00ed00ed00eb80eb80eb80eb80eb80eb80eb80eb80eb80eb80eb80eb80eb80eb80eb80eb80eb80eb80eb80eb80eb80eb80eb80eb80eb80eb80eb80eb80eb80eb80eb80eb80eb50eb50eb50eb5))
 (n (l 0x17ee152715271527152415241524152413e01362136213e0135f135f135f13dd13dd13dd13dd11820f210f210f210f210f210f240f240f2411491149114911491149114911491149114911491149114911491149114911490ef10ef10ef10ef10ef10ef10ef10ef10ef10ef10ef10ef10ef10ef10ef10ef10ed00ed00ed00ed0)
 (l 0xf750f750f750f750f750f750f750f750f750f780f750f750f750f780f750f780f750f780f750f780f750f780f750f6c0f5a0f5a0f5a0f5a1032103210321032103210321032103210321032103210321032103210321032102f102f102f102f102f102f102f102f102f102f102f102f0f390f390f390f3918b417ee17ee17ee)))
 (n (n (l 0x106e1077106e1077106e10770f840f8411a011a01062105f105c105c105c105c0f7e0f7e0f810f7e105c1065105c11a01065106510650f7e0f810f7e0f810f7e0f810f7e0f7e0f810f810f810f7e0f810f6c0f6c0f6f0f5a0f6f0f5a0f5a0f5a0f5a0f5a0f5a0f5d0f750f750f750f750f750f750f750f750f750f750f750f75)
 (l 0xf990f990f990f990f990f990f990f990f8a0f8a0f8a0f8a0f8a0f8a0f8a0f8a0f8a0f8a0f8a0f8a0f8a0f8a0f8a0f8a0f8a0f8a0f8a0f8a0f8a0f8a0f8a0f8a0f8a0f8a0f8a0f8a0f8a0f8a0f8a0f8a106e1077106e1077106e1077106e1077106e1077106e1077106e1077106e106e106e1077106e1077106e1077106e1077))
 (n (l 0xf9f0f9f0f9f0f9f0f9f0f9f0f9f0f9f0f9f0f9f0f9f0f9f0f9f0f9f0f9f0f9f0f9f0f9f0f9f0f9f156315631563156315631563156315631563156315631563156315631563156315630f990f990f990f990f990f990f990f990f990f990f990f990f990f990f990f990f990f990f990f990f990f990f990f990f990f990f99)
 (l 0xff30ff30ff30ff30ffc0fff0fea0ffc0ffc0ffc0ffc0ffc0ffc0fe70fe70ff90ff60fe70fff0fff0fff0fff0fff0fff0fff0fff0fff0fff0fff0fff0fff0fe70fe70fe70fe70fff0fff0fff0ffc0ffc0ffc0ffc0ffc0ff60ff60fff0fff0ffc0ffc0ff60fff0fe70f9f0f9f0f9f0f9f0f9f0f9f0f9f0f9f0f9f0f9f0f9f0f9f))))
 (n (n (n (l 0x102f102f102f1140153c153c153c103210321032103210321032102f102f1032103210321032103212b112ae12ae12b112ae12ae12b112b112ae12ae12ae12db12b712ae12b712b112b713e312b112ae12ae12ae12ae12b712b112b112db12db10171017101710170ff00ff011641167116a116a0ff30ff30ff30ff30ff30ff3)
 (l 0x1446144913801383174613801383106e107710681068106b106e1077106e1077106e1077106e10771548154b154b155714401440143a143a143a143a143a143d143d143a119d10441056105910441044104410441047104d1047104d1047104d1047104d10501050153c153c153c153c153c153c12c012c012c012c012e7102f))
 (n (l 0x10861080107a107a106e10771077106e1077106e1077106e106e106e106e106e106e106e106e1071106e1077106e1077106e1077106e1077106e1077106e1077106e1077106e1077106e1077106e1077106e1077106e1077106e1077106e1077106e1077106e1077155a1560155a1560155a1560155a1560155a1560155a155a)
 (l 0x109b109b109b109b145514551455145514551455107d107d107d107d107d107d107d107d107d107d10861086144f144f14521083107a107a10801080107a107a107a107a108010861086108610861086108610861086108610861086108610861086108610861086108610861086108610861086108610861086108610861086)))
 (n (n (l 0x10b010b010b010b010ad10ad10a710a710aa10a710a710a710a410a410a410a410a410a410a410a410a410a410a410a410a410a410a410a410a410a410a410a410a410a410a410a4109b109b109b109b109b109b109b109b109b109b109b109b109b109b109b109b109b109b109b109b109b109b109b109b109b109b109b109b)
 (l 0x10b910b910b910b910b910b910b910b910b910b910b910b910b910b910b910b910b910b910b910b910bf10c210b310bc10b910b910b910b910b910b910b910b910b910b910b910b910b010b010b010b010b010b010b010b010b010b010b010b010b010b010b010b010b010b010b010b010b010b010b010b010b010b010b010b0))
 (n (l 0x10ce10d410ce10d410ce10d410ce10d410ce10d410ce10d410ce10d410ce10d410ce10d410ce10d410d710cb10c810c81458145814581458145814581458145810cb10c510c510c5115210d110ce10d410ce10d410ce10d410ce10d410ce10d410ce10d41386138910b910b910b910b910b910b910b910b910b910b910b910b9)
 (l 0x10e010e010e010e010e010e010e010e010e010e010e010e010e310e310e310e310e310e310e310e310e310e310e310e310e310e310e310e310e310e310e310e310e310e310e310e310e310e310e310e310e310e310e010e01458174f15721572156c156f156c156f10ce10d410ce10d410ce10d410ce10d410ce10d410ce10d4))))))
 (n (n (n (n (n (l 0x10f210f210f210f210f210f210f210f210f210f210f210f210f210f210f210f210f210f210f210f210f210f210ef10ef10ef10ef10ef10ef10ef10ef10ef10ef110411041104110411041104110411041104110411041104110411041104110410f5114610ec10ec10ec10e910e910e910e910e910f210f210f210f210f210f2)
 (l 0x1125112511251125112511251125112511251125112511251125112511251125112511251125112511251125112511251125112511251125112511251125112511131113111311131113111311131113111311131113111311131113111311131113111311131113111311131113111311131113111311131113111311131113))
 (n (l 0x11311131113111311131113111311131113111311131113111311131113111311131113111311131113111311131113111311131113111311131113111311131112e112e112e112e112e112e112e112e112e112e112e112e112e112e112e112e112e112e112e112e112e112e112e112e112e112e112e1143112e112e112e112e)
 (l 0x11a911a911a911a911a911b211ac11ac11a911a911b211b211b211b211b211b211b211b211b211b211b211b211b211b211b211b211b211b211b211b211b211b2191d191d191d191d191d191d191d191d191d191d17cd17cd17cd17cd17cd17cd17cd17cd17cd14e212e112e112e112e112e112e112e112e1113d113d113d113d)))
 (n (n (l 0x11d311d311d311d311d311d311d311d311d311d311d311d311d311d311d311d311d311d311d311d311d311d311d311d311d311d311d311d311d311d311d311d311b811b811b811b811b811b811b811b811b811b811b811b811b811b811b811b811b811b811b811b811b811b811b811b811b811b811b811b811b811b811b811b8)
 (l 0x11ee11ee11ee11ee11ee11ee11ee11ee11ee11ee11ee11ee11ee11ee11ee11ee11ee11ee11ee11ee11ee11ee11ee11ee11ee11ee11ee11ee11ee11ee11ee11ee11e211dc11df11df11df11df11df11df11df11df11df11df11df11df11df11df11df11df11df11df11df11df11df11df11df11df11df11df11df11df11df11df))
 (n (l 0x1212121212121212121212121212121212121212121212121212121212121212121212121212121212121212121212121212121212121212120c11fd11fd11fd1977197a1755175211fa11f711f711f711fa11fa11fa11fa133211fa132f11f411f411f411f411f411f411f411f411f411f411f411f411f411f411f411f411f4)
 (l 0x1230123012301230123012301230123012301230123012301230123012301230157e157e157b1578121b121e121812181218121e121e121e121e121e121e1221121e121e121e121e121e121e121e121e121e121e121e121e121e121e121e121e120c120c11fd11fd120c120c11fd11fd11fd11fd120c120c1200121212121212))))
 (n (n (n (l 0x124b124b124b124b124b124b124b124b124b124b124b124b124b124b124b124b123012301230123012301230123012301230123012301230123012301230123012301230123012301230123012301230123012301230123012301230123012301227122412301239123912301239122412241239123912241224122412301224)
 (l 0x126c126c126c126c126c126c126c126c126c126c126c126c126c126c126c126c12601260126012631263126312631263126312631263126312631263126312631263126312631263126312631263126312631263126312631263126312631263124b124b124b124b124b124b124b124b124b124b124b124b124b124b124b124b))
 (n (l 0x1293129312931293129312931293129312931293129312931293129012811281127b127b127b127b127b127b127b127b127b127b127b127b127b127b127b127b127b127b127b127b127b127b127b127b127b127b127b127b127b127b127b127b126c126c126c126c126c126c126c126c126c126c126c126c126c126c126c126c)
 (l 0x129f129f129f129f129f129f129f129f129f129f129f129f129f129f129f129f12991299129c128d128d1287128a12901290128412841284128412901290129012931293129312931296129312931293129312931293129312931293129312931293129312931296129312961293129312931293129312931293129312931293)))
 (n (n (l 0x12a212a212a5129f129f129f129f129f129f129f129f129f129f129f129f129f129f129f129f129f129f129f129f129f129f129f129f129f129f129f12a212a512a212a5129f129f129f12a2129f129f129f129f12a212a212a212a512a512a5129f129f129f129f129f129f129f129f129f129f129f129f129f129f129f129f)
 (l 0x12ae12db12ba12b712b712ae12db12b712db12db12b712b412ae12ae12ae12ae12ae12db12b412ae136513651365136512ae136512b112b112d213d712d213d713d713d713d713d713d713d713d713d713d713d712d213d7198012a812c912c912c912c612c612c612c612c612c612c612c612c612c612c6129f129f129f129f))
 (n (l 0x12c612c612c612c612c612c612c612c612c612c612c612c61ad01ad01ad01581158112c612c612c612c612c612c612c612c612c612c612c6187e187e187e187e187e13ef13ef13ef13ef13ef13ef13ef13ef13ef13ef12cc13ce13ef12c312c312c312c313d413d413d413d413d413d413d413d413d413d412b112b112db12ae)
 (l 0x12cf13d412cf13d413d413d413d413d413d413d413da13da1ad01ad01ad01a2e145b145b13d413d413d413d413d413d413d413d413d413d412cf13d413d413d413d413d413d413d412cf13d413d413d413d413d413d413d413d112cc12cc12cc12cc12cc13d713d713d712d213d713d713d712d213d713d712c612c612c612c6)))))
 (n (n (n (n (l 0x1a281a2b196e197117431749174317491749174915601560196e17fa1560156015601449138013831380138313801383138013831380138312f912f912f912f912f912f912f912f912f912f912f912f912f912f912f912f912f912f912f912f912f912f912f912f912f912f912f912f912f912f912f912f912d513da13d412cf)
 (l 0x13bf13bf13bf13bf13bf13bf13bf13bf13bf13bf13bf13bf13bf13bf13bf13bf13bf13bf13bf13bf13bf13bf13bf13bf13bf13bc13ad13bc13a713a713a713a713a713a713a713a713a713a713a713a713a713a713a713a713a713a713a713a713a713a713a713a713a713a713a713a713a713a713a713a71a281a2b1a281a2b))
 (n (l 0x13cb13cb13cb13cb13cb13cb13cb13cb13cb13cb13cb13cb13cb13cb13cb13cb13cb13cb13cb13cb13c513c513c513c513c513c513c513c513c513c513c513c513c513c513c513c513c513c513c513c513c513c513c513c513c513c513c513c513c513c513c513c513ad13ad13ad13ad13ad13ad13ad13ad13bf13bf13bf13bf)
 (l 0x1404140414041404140414041404140414041404140414041404140414041404140414041404140419231923192319231923192319231923192319231923192319231923192319231923192319231923192319231923192319231923192319231923192313f813fb13cb13cb13cb13cb13cb13cb13cb13cb13cb13cb13cb13cb)))
 (n (n (l 0x1404140414041404140414041404140414041404140414041404140114011401140114011401140114041404140414041404140414041404140414041404140414041401140114041401140414041404140414071404140414041404140414011404140114041401140414041404140114041404140414041404140114011404)
 (l 0x140414041404140414041404140414041404140414041404140414041404140414041404140414041404140414041404158a158a14011401140114011401140114011401140114011401140114041404140414041404140414041404140414041404140414041401140114011401140114011401140114011401140414041404))
 (n (l 0x17d017d01596140414041404140414041404140414041404140414041404140414041404140414041404140414041404140414041404140414041404140414041404159614041404140414041404140417d017d017d0159615961596159615961596159615961596159015901596140414041404140414041404140414041404)
 (l 0x15961596159615961596159615961596159615961596159617d017d017d017d017d015961596159915991407140414041407140417011407140714071404140415961596158d158d1596159615961590159615961590159014041404140414041404140414041404140414041404140414041404140714041404140414041404))))
 (n (n (n (l 0x1596140414041404140414041404140414041404140414041404140414041404140414041404140414041404140414041404140414041404140414041404140417d317d317d317d317d317d017d017d0159615901596170115961590159014041404140414041404140414041404140414041404140414041404140414041404)
 (l 0x1407140714071404140414041404140714041404140414071407140714071407140714071407140714071407140714071407140714071407140714071404140414041404140414041404140414041404140414041404140414041404140414071407140714071407140714071407140714071407140414041407140715961404))
 (n (l 0x175817d017d017d017d015961593158d158d158d158a158a145e145e145e145e17d015901596140414041404140417011404140414041404140414041404140414041404140414041404140414041404140414041404140414041404140414041404140414071404140714041404140414041404140414041407140714071404)
 (l 0x158d158d158d158d159615901590159015961590159015901590159015901596159015901590159015961590159615901590159015901590159018871596159615961596159915991596159015901596159615901590159015901590159015901404140414041404140414041404140414041404140414041404140414041404)))
 (n (n (l 0x140a140a140a14e8140a140a140a140a14e814e8140a14e8140a140a140a140a14e814e8140a140a140a140a140a140a14e8140a140a140a14e8140a14e8140a14e8140a14e8140a140a140a14e8140a140a140a140a140a140a140a140a140a140a140a140a140a140a140a140a14e8140414041404140414041596158d158d)
 (l 0x1410141014101410141014101410141014101410141014101410141014101410141014101410141014101410141014101686168616861686168616861686168616861686168616861686168616861686140d140d140d140d140d140a140a140a140d140d140d17d617d617071707140a140a140a140a140a140a140a140a140a))
 (n (l 0x1416141614161416141614161416141614161416141614161416141614161416141614161416141614161416141614161410141014101410141014101410141014101413141314131410141014101410141014101410141014101410141014101410141014101410141314101410141014101410141014101410141014101410)
 (l 0x14821482148214821482148214821482148214821482148214821482148214821482148214821482148214701470147015a2146414641464146414641464146414641464146414641464146414641464146114611461146114611461146414641464146414641464175b18001803180314161416141614161416141614161416)))))))

/-- Rows 448..511 of `propsVectorsIndex`. -/
def propsVectorsIndex_rows7 : Tree :=
 (n (n (n (n (n (n (l 0x14a314a314a314a314a314a314a314a314a314a314a314a314a314a314a314a314a314a314a314a314a314a314a314a3149d149d149d149d149d149d149d149d149d149d149d149d149d149d149d149d149d149d149d149d149d149d149d149d149d149d149d149d149d149d149d149d14821482148214821482148214821482)
 (l 0x14be14be14be14be14be14be14be14be14be14be14be14be14be14be14be14be14be14be14be14be14be14b814ac14ac14a614a614a614a614a614a614a614a614a614a614a614a614a614a614a614a614a614a614a614a614a614a614a614a614a614a614a614a614a614a614a614a61a3414a314a314a314a314a314a314a3))
 (n (l 0x14df14df14df14df14df14df14df14df17731773176a1770176d15a814b514b514b514b514b514b514b514b514b514b51ad91adc15ab176717671767176414b214af14c414c414be14c114c114be14bb14b814ac14ac14ac14ac14ac14ac14ac14ac14ac14b814b814b814be14be14be14be14be14be14be14be14be14be14be)
 (l 0x153c153c153c153c153c153c153c153c153c153c153c195619561956153c153c153c153c153c153c153c153c153c153c153c153c153c153c153c153c153c153c153c153c153c153c153c153c153c153c14df14df14df14df14df14df14df14df14df14df14df14df14df14df14df14df14df14df14df14df14df14df14df14df)))
 (n (n (l 0x159615901590159015901590159015901590159615961596158d158d158d158d158d158d158d158d15961596159615901590159015901590159015901590159015901590159015961596159615901590195619561956195619561956195619561956195619561956195618ba153c153c153c153c153c153c153c153c1a22153c)
 (l 0x15ba15ba15ba15ba15ba15ba15ba15ba15ba15ba15ba15ba1590159015901596159015901590159015901590159015901590159615961590159015901590159015901590159015961590159015961884159015901590159015901590159015901590170417041590159015901590159915901590159615961596159615901590))
 (n (l 0x15d215d215d215d215d215d215d215d215d215d215d215d215cc15cc15cc15cc15cc15cc15cc15cc15cc15cc15cc15cc15cc15cc15cc15cc15cc15cc15cc15cc15cc15cc15cc15cc15cc15cc15cc15cc15cc15cc15cc15cc15ba15ba15ba15ba15ba15ba15ba15ba15ba15ba15ba15ba15ba15ba15ba15ba15ba15ba15ba15ba)
 (l 0x16141614161416141614161416141614161416141614161415d515d515d515d515d515d515d515d515d515d515d515d515d515d515d515d515d515d515d515d515d515d515d515d515d515d515d515d515d515d515d515d515d215d215d215d215d215d215d215d215d215d215d215d215d215d215d215d215d215d215d215d2))))
 (n (n (n (l 0x16231623162316231623162316231623162316231623162316201620162016201617161d161d161d161d161d161d161d161d161d161d161d161d161d161d161d161d161d161d161d161d161d161d161d161d161d161d161d16051614161416141614161416141614161416141614161416141614161416141614161416141614)
 (l 0x164716471647164716471647164716471647164716471647163e163e163e163e163e163e163e163e163e163e163e163e163e163e163e163e163e163e163e163e163e163e163e1635163e163e163e163e163e163e163e163e16231623162316231623162316231623162316231623162316231623162316231623162316231623))
 (n (l 0x165916591659165916591659165916591659165916591659164d1656164a16561656164a164a164a164a164a164a164a164a165616561656165916591659165916591659165916591659165916591659165916591659165916471647164716471647164716471647164716471647164716471647164716471647164716471647)
 (l 0x168616861686168616861686168616861686168616861686167a167a167a167d167d167d167d167d167d167d167d167d167d167d167d167d167d167d167d167d167d167d167d167d167d167d167d167d167d167d167d167d16591659165916591659165916591659165916591659165916591659165916591659165916591659)))
 (n (n (l 0x169b169b169b169b169b169b169b169b169b169b169b169b169216921692169216921692169516a116a1168f168f168f168f168f168f168f169b169b169b169b169b169b169b169b169b169b169b169b169b169b169b169b1686168616861686168916891689168c168c168c1686168616861686168616861686168616861686)
 (l 0x16aa16aa16aa16aa16aa16aa16aa16aa16aa16aa16aa16aa16a416a416a416a416a416a416a416a416a416a716a716a716a716a716a716a716a716a716a716a716a716a716a716a716a716a716a716a716a716a716a716a7169b169b169b169b169b169b169b169b169b169b169b169b169b169b169b169b169b169b169b169b))
 (n (l 0x16d716d716d716d716d716d716d716d716d716d716d716d716ce16ce16ce16ce16ce16ce16ce16ce16ce16ce16ce16ce16ce16ce16ce16ce16ce16ce16ce16ce16ce16ce16ce16ce16ce16ce16ce16ce16ce16ce16ce16ce16aa16aa16aa16aa16aa16aa16aa16aa16aa16aa16aa16aa16aa16aa16aa16aa16aa16aa16aa16aa)
 (l 0x16ef16ef16ef16ef16ef16ef16ef16ef16ef16ef16ef16ef16da16ec16da16ec16ec16da16e916da16da16da16da16da16da16e916e916da16ef16ef16ef16ef16ef16ef16ef16ef16ef16ef16ef16ef16ef16ef16ef16ef16d716d716d716d716d716d716d716d716d716d716d716d716d716d716d716d716d716d716d716d7)))))
 (n (n (n (n (l 0x16fe16fe16fe16fe16fe16fe16fe16fe16fe16fe16fe16fe16f816f816f816f816f816f816f816f816f816f816f816f816f816f816f816f816f816f816f816f816f816f816f816f816f816f816f816f816f816f816f816f816ef16ef16ef16ef16ef16ef16ef16ef16ef16ef16ef16ef16ef16ef16ef16ef16ef16ef16ef16ef)
 (l 0x1761176117611761176117611761176117611761176117611a22195619561956195619561956195619561956195619561956195619561956174017401740174019561956195619561956195619561956195619561956195616fe16fe16fe16fe16fe16fe16fe16fe16fe16fe16fe16fe16fe16fe16fe16fe16fe16fe16fe16fe))
 (n (l 0x179d179d179d179d179d179d179d179d17a017a3179d179d179d179d179d179d179d179d179d179d179d179d179d179d179d179d179d179d179d179d179d179d179d179d179d179d179d179d179d179d179d179d179d179d17611761176117611761176117611761176117611761176117611761176117611761176117611761)
 (l 0x17a917a917a917a917a917a917a917a917a917a917a917a917a917a917a917a917a917a917a917a917a917a917a917a917a617a617a617a617a617a617a617a617a617a617a617a617a617a617a617a617a617a617a617a617a617a617a617a617a617a617a617a617a617a617a617a6179d179d179d179d179d179d179d179d)))
 (n (n (l 0x17be17be17be17be17be17be17be17be17be17be17be17be17be17be17be17be17be17be17be17be17be17be17be17be17bb17bb17bb17bb17bb17bb17bb17bb17bb17bb17bb17bb17bb17bb17bb17bb17bb17bb17bb17bb17bb17bb17bb17bb17bb17bb17bb17bb17bb17bb17bb17bb17a917a917a917a917a917a917a917a9)
 (l 0x17c417c417c417c117c117c117c117c117c117c117c117c117c117c117c117c117c117c417c417c417c417c117c117c117c117c117c117c117c117c117c117c117c117c117c117c117c117c117c117c117c117c117c117c117c117c117c117c117c117c117c117c117c117c117c117c117be17be17be17be17be17be17be17be))
 (n (l 0x17dc17dc17dc17dc17dc17dc17dc17dc17dc17dc17dc17dc17dc17dc17dc17dc17dc17dc17dc17dc17dc17dc17dc17dc17c417c417c417c417c417c417c417c417c417c417c417c417c417c417c417c417c417c417c417c417c417c417c417c417c417c417c417c417c417c417c417c417c417c417c117c417c417c417c417c4)
 (l 0x192919291929192919291929188d188d188d188d188d188d188d188d188d188d188d188d188d17df17df17df17df17df192c18901890189018901890189017e217df17df17df17df17df17df17df17df1a971a941a941b3f18c618c618c618c618c618c618c618c618c618c618c618c617dc17dc17dc17dc17dc17dc17dc17dc))))
 (n (n (n (l 0x188d188d188d188d188d188d188d188d1a0a1a0a1a0a1929188d188d188d188d188d180f188d188d188d188d188d188d1a94189018901890180f188d1890189018901890189018901890192c192c189019291929192919291929192919291929188d1890188d188d188d188d188d188d1a0a1a0a1a0a1a0a1a0a1a0a1a0a1a0a)
 (l 0x182418241824182418241824182418241824182418241824182418241824182418241824182418241824182418241824182118211821182118211821182118211821182118211821182118211821182118211821182118211821182118211821182118211821182118211821182418241929188d188d188d188d188d188d188d))
 (n (l 0x187218721872187218721872187218721872187218721872187218721872187218721872187218721872187218721872185a185a185a185a185a185a185a185a186f186f186f18721872187218721872187218721872187218721872187218721872187218721872187218721872187218241824182418241824182418241824)
 (l 0x1899189918991899189918991899189918991899189918991899189918991899189918991899189918991899189918991896189618961896189618961896189618961896189618961896189618961896189618961896189618961896189618961896189618961896189618961896189618721872187218721872187218721872)))
 (n (n (l 0x18f018f018f018f018f018f018f018f018e718e7199518f618f618e418e118de18ed18db18db18db18db18db18db18db18db18db18db18db18db18db18f318f318f318f31a461a4618f018f018f018f01b481b481b481b481b481b481b481b481b481b481b481b481b4818991899189918991899189918991899189918991899)
 (l 0x18ff18ff18ff18ff18ff18ff18ff1911190b18ff18ff18ff18ff1914190e18ff18ff18ff18ff190218fc191119111911191119111911191119111911191119111911191119111911191119111911191118f018f018f018f018f018f018f018f018f018f018f018f018f018f018f018f018f018f018f018f018f018f018f018f0))
 (n (l 0x1a0a19291929192919291929192919291923192319231923192319231923192319231923192319231923192319231923192319231923192319231923192319231923192319231923192319231923192319111911191119111911191119111911191119111911191119111911191119111911191119111911191118ff18ff18ff)
 (l 0x19381938193819381938193819381938193219321932193219321932193219321932193219321932193219321932193219321932193219321932193219321932193219321932193219321932193219321a0a1a0a1a0a1a0a1a0a1a0a1a0a1a0a1a0a1a0a1a0a1a0a1a0a1a0a1a0a1a0a1a0a1a0a1a0a1a0a1a0a1a0a1a0a1a0a))))))
 (n (n (n (n (n (l 0x19c519c519c519c519c519c519c519c519aa19aa19aa19aa19aa19aa19aa19aa19aa19aa19aa19aa19aa19aa19aa19aa19aa19aa19aa19aa19aa19aa19aa19aa19aa19aa19aa19aa19aa19aa19aa19aa193819381938193819381938193819381938193819381938193819381938193819381938193819381938193819381938)
 (l 0x19e619e619e619e619e619e619e619e619cb19cb19cb19cb19cb19cb19cb19cb19cb19cb19cb19cb19cb19cb19cb19cb19cb19cb19cb19cb19cb19cb19cb19cb19cb19cb19cb19cb19cb19cb19cb19cb19c519c519c519c519c519c519c519c519c519c519c519c519c519c519c519c519c519c519c519c519c519c519c519c5))
 (n (l 0x19f219f219f219f219f219f219f219f219e919e919e919e919e919e919e919e919e919e919e919e919e919e919e919e919e919e919e919e919e919e919e919e919e919e919e919e919e919e919e919e919e619e619e619e619e619e619e619e619e619e619e619e619e619e619e619e619e619e619e619e619e619e619e619e6)
 (l 0x1a491a491a491a491a491a491a491a491a941a941a941a941a971a941a101a101a0a1a101a101a0a1a0d1a0d1a0d1a0d1a941a941b3c1b3c1b3c1a941a941a941a941a941a941b3c1b3c1a0a1a0a1a0a19ef19ef19ef19f219f219f219f219f219f219f219f219f219f219f219f219f219f219f219f219f219f219f219f219f2)))
 (n (n (l 0x1a791a791a791a791a791a791a791a791a701a701a701a701a701a701a701a701a701a701a701a701a701a701a701a701a701a701a701a701a701a701a701a701a701a701a701a701a701a701a701a701a491a491a491a491a491a491a491a491a491a491a491a491a491a491a491a491a491a491a491a491a491a491a491a49)
 (l 0x1b1e1b1e1b1e1b1e1b1e1b1e1b1e1b1e1a8b1a8b1a8b1a8b1a8b1a8b1a8b1a8b1a8b1a8b1a8b1a8b1a8b1a8b1a8b1a8b1a8b1a8b1a8b1a8b1a8b1a8b1a8b1a8b1a8b1a8b1a8b1a8b1a8b1a8b1a8b1a8b1a7f1a7f1a7f1a791a791a791a791a791a791a791a791a791aaf1a791aaf1aaf1a791a791a791a791a791a791a791a79))
 (n (l 0x1b4e1b4e1b4e1b4e1b4e1b4e1b4e1b4e1b2a1b2a1b2a1b2a1b2a1b2a1b2a1b2a1b2a1b2a1b2a1b2a1b2a1b2a1b2a1b2a1b2a1b2a1b2a1b2a1b2a1b2a1b2a1b2a1b2a1b2a1b2a1b2a1b2a1b2a1b2a1b2a1b1e1b1e1b1e1b1e1b1e1b1e1b1e1b1e1b1e1b1e1b1e1b1e1b1e1b1e1b1e1b1e1b1e1b1e1b1e1b1e1b1e1b1e1b1e1b1e)
 (l 0x1b511b511b511b511b511b511b511b511b511b511b511b511b511b511b511b511b511b511b511b511b511b511b511b511b511b511b511b511b511b511b511b511b4e1b4e1b4e1b4e1b4e1b4e1b4e1b4e1b4e1b4e1b4e1b4e1b4e1b4e1b4e1b4e1b4e1b4e1b4e1b4e1b4e1b4e1b4e1b4e))))
 (n (n (n (l 0x0)
 (l 0x0))
 (n (l 0x0)
 (l 0x0)))
 (n (n (l 0x0)
 (l 0x0))
 (n (l 0x0)
 (l 0x0)))))
 (n (n (n (n (l 0x0)
 (l 0x0))
 (n (l 0x0)
 (l 0x0)))
 (n (n (l 0x0)
 (l 0x0))
 (n (l 0x0)
 (l 0x0))))
 (n (n (n (l 0x0)
 (l 0x0))
 (n (l 0x0)
 (l 0x0)))
 (n (n (l 0x0)
 (l 0x0))
 (n (l 0x0)
 (l 0x0)))))))

/-- UnicodeData/CharPropsData.py:1409-3362 `propsVectorsTrie_index`: 31228 entries of 16 bits. -/
def propsVectorsIndex : Table :=
 { size := 31228, bits := 16, depth := 9, rows := (n (n (n propsVectorsIndex_rows0 propsVectorsIndex_rows1) (n propsVectorsIndex_rows2 propsVectorsIndex_rows3)) (n (n propsVectorsIndex_rows4 propsVectorsIndex_rows5) (n propsVectorsIndex_rows6 propsVectorsIndex_rows7))) }

/-- UnicodeData/CharPropsData.py:3364 `propsVectorsTrie_index_length`. -/
def propsVectorsIndexLength : Nat := 0x13a0

/-- UnicodeData/CharPropsData.py:3365 `propsVectorsTrie_index_2_null_offset`. -/
def propsVectorsIndex2NullOffset : Nat := 0xa40

/-- UnicodeData/CharPropsData.py:3366 `propsVectorsTrie_data_null_offset`. -/
def propsVectorsDataNullOffset : Nat := 0x1420

/-- UnicodeData/CharPropsData.py:3367 `propsVectorsTrie_high_start`. -/
def propsVectorsHighStart : Nat := 0x110000

/-- UnicodeData/CharPropsData.py:3368 `propsVectorsTrie_high_value_index`. -/
def propsVectorsHighValueIndex : Nat := 0x79f8

/-- Rows 0..63 of `propsVectorsTable`. -/
def propsVectorsTable_rows0 : Tree :=
 (n (n (n (n (n (n (l 0x1d67000000000000000000001b67000000000000000000001a67000000000000000000001967000000000000000000001867000000000000000000001767000000000000000000001667000000000000000000001567000000000000000000001467000000000000000000001367000000000000000000001267000000000000000000001167000000000000000000001067000000000000000000000e67000000000000000000000d67000000000000000000000c67000000000000000000000b67000000000000000000000a6700000000000000000000086700000020000800000000006704e000000000000000000067000000000000000000000067)
 (l 0x4467000000000000000000004167000000000000000000004067000000000000000000003e67000000000000000000003c67000000000000000000003b67000000000000000000003a67000000002000000000003267000000002000000000003167000000000000000000002d67000000000000000000002b67016000000000000000002a67000000000000000000002967000000200008000000002867000000000000000000002767000000000000000000002567000000000000000000002467000000000000000000002367000000000000000000002267000000000000000000002067000000000000000000001f670000000000000000))
 (n (l 0x7067000000000000000000006f67000000000000000000006567000000000000000000006467000000000000000000006367000000000000000000006267000000200008000000006067000000000000000000005d67000000000000000000005c67000000000000000000005b67000000000000000000005967000000000000000000005867000000000000000000005767000000200008000000005667000000000000000000005567000000000000000000005467000000000000000000005167000000000000000000005067000000000000000000004a6700000000000000000000496700000000000000000000486700000000)
 (l 0x8e67000000000000000000008c67000000000000000000008b67000000000000000000008967000000000000000000008867000000000000000000008767000000000000000000008667000000000000000000008567000000000000000000008467000000000000000000008367000000000000000000008267000000000000000000008167000000000000000000007f67000000000000000000007e67000000000000000000007c67000000000000000000007b67000000000000000000007a67000000000000000000007867000000000000000000007767000000000000000000007667000000000000000000007567000000002000000000007367)))
 (n (n (l 0xa96700000000000000000000a86700000000000000000000a76700000000000000000000a66700000000000000000000a56700000000000000000000a46700000000000000000000a36700000000000000000000a167000000000000000000009f67000000000000000000009c67000000000000000000009a67000000000000000000009967000000000000000000009867000000000000000000009767000000000000000000009667000000000000000000009567000000000000000000009367000000000000000000009267000000000000000000009167000000000000000000009067000000000000000000008f670000000020000000)
 (l 0xc26700000000000000000000c16700000000000000000000c06700000000000000000000bf6700000000000000000000be6700000000000000000000bd6700000000000000000000bc6700000000000000000000ba6700000000000000000000b96700000000000000000000b86700000000000000000000b76700000000000000000000b56700000000000000000000b46700000000000000000000b26700000000000000000000b16700000000000000000000af6700000000000000000000ae6700000000000000000000ad6700000000000000000000ac6704e00000000000000000ab6704e00000000000000000aa6700000000))
 (n (l 0xdf6700000000000000000000de6700000000000000000000dd6700000000000000000000dc6700000000000000000000db6700000000000000000000da6700000000000000000000d86700000000000000000000d66700000000000000000000d56700000000000000000000d46700000000000000000000d36700000000000000000000d26704e00000000000000000d06704e00000000000000000cf6704e00000000000000000cc6700000000000000000000ca6700000000000000000000c96700000000000000000000c86700000000000000000000c76700000000000000000000c66704e00000000000000000c46704e00000000000000000c367)
 (l 0xf76700000000000000000000f66700000000000000000000f56700000000000000000000f36700000000000000000000f16700000000000000000000ef6700000000000000000000ee6700000000000000000000ed6700000000000000000000ec6700000000000000000000eb6700000000000000000000ea6700000000000000000000e96700000000000000000000e86700000000000000000000e76700000000000000000000e66700000000000000000000e56700000000000000000000e46704e00000000000000000e36700000000000000000000e26700000000000000000000e16700000000000000000000e0670000000000000000))))
 (n (n (n (l 0x10e67000000000000000000010d67000000000000000000010c67000000000000000000010b67000000000000000000010a6700000000000000000001096700000000000000000001086700000000000000000001076700000000000000000001066704e00000000000000001056700000000000000000001046700000000000000000001036700000000000000000001026700000000000000000001016700000000000000000000fe6700000000000000000000fd6700000000000000000000fc6700000000000000000000fb6704e00000000000000000fa6700000000000000000000f96700000000000000000000f86700000000)
 (l 0x12667000000000000000000012567000000000000000000012467000000000000000000012367000000000000000000012267000000000000000000012167000000000000000000012067000000000000000000011f67000000000000000000011e67000000000000000000011d67000000000000000000011c67000000000000000000011b67000000000000000000011a6704e000000000000000011967000000000000000000011867000000000000000000011767000000000000000000011667000000000000000000011567000000000000000000011467000000000000000000011367000000000000000000011067000000000000000000010f67))
 (n (l 0xb006700e0000000000000000ad16700e0000000000000000ac56700e0000000000000000a5f6700e0000000000000000a5e6700e0000000000000000a4f6700e0000000000000000a476700e0000000000000000a0067000000000000000000013467000000000000000000013367000000000000000000013267000000000000000000013167000000000000000000013067000000000000000000012f67000000000000000000012d67000000000000000000012c67000000000000000000012b6704e000000000000000012a670000000000000000000129670000000000000000000128670000000000000000000127670000000000000000)
 (l 0x22040107c00100110004190022040007c00100110004190025040107c00100110003190025040007c00100110003190022040207c00100110003190022040107c00100110003190025040107c00100110002190022040107c001001100021901d3b02040000001110002000171000024000008110002001420000024000000110002000022040207c001001100020000c4000b04000001110002000090002000000000110002000116a8a0400000011100010000a5a040400000011100010000643020400000011100010000440020400000011100010000900020000000001100010000e0000000000000000b2e6700e0000000000000000b126700e00000)))
 (n (n (l 0x1100080e00200000040004001100080e0025040007c00100110008070022040007c00100110008070023040107c00500110008000020100106800010110008000020000104000400110008000100140104000010110008000022040f07c00500110006190023040007c00d00110006000053040007c00500110006000023040007c00500110006000022040007c00500110006000020040004000400110006000020000204000400110006000023040007c00100110005190022040007c00100110005190025040207c00100110004190025040107c00100110004190025040007c00100110004190023040007c00100110004190022040207c0010011000419)
 (l 0xc00001011000a030023040007c0050011000a030025040007c0010011000a030022040207c0010011000a030022040007c0010011000a03002700000400000011000a03002010000400000011000a03002004000400000011000a030025040107c00100110009080025040007c00100110009080022040107c00100110009080022040007c00100110009080020000004000000110009080025040207c001201100080e0022040207c001201100080e0025040107c001001100080e0025040007c001001100080e0022040207c001001100080e0022040107c001001100080e0022040007c001001100080e00220402070005001100080e0020000204000400))
 (n (l 0x9624600280240011000f010023040007d0010011000c020023040007c0050011000c020023040207c0010011000c020023040107c0010011000c020023040007c0010011000c02013298000680000011000c02015000000400000011000c02013298000400000011000c02013294000400000011000c02002000000400000011000c02009624600280240011000c02009624600280210011000c02002189608000000011000c000263380007c0010011000b13002000000400001011000b13004000000400000211000b13002304000400000011000b13002010000400000011000b13002000000400000011000b13009624600280250011000b1301049400)
 (l 0x110011100023040007c00100110011100096254006800100110011100096246002806400110011100096246002802400110011100096246002802100110011100023040107c00100110010040023040007c00100110010040096254106800100110010040096254006800100110010040150000004000000110010040020000004000000110010040096246002806400110010040096246002802400110010040096246002802100110010040023040107c0010011000f0a0023040007c0010011000f0a009625400680010011000f0a002000000400000011000f0a009624600280640011000f0a009624600280240011000f0a009624600280210011000f0a)))))
 (n (n (n (n (l 0x2802100110015240023040107c00100110014230023040007c00100110014230096254106800100110014230096254006800100110014230096246002806400110014230096246002802100110014230023040107c001001100131f0023040007c001001100131f00962541068001001100131f00962540068001001100131f01329800068000001100131f00200000040000001100131f00962460028064001100131f00962460028024001100131f00962460028021001100131f0023040007c001001100120f00962540068001001100120f00962460028064001100120f00962460028024001100120f00962460028021001100120f0023040107c00100)
 (l 0x20000004000000110019260186246002806100110019260186246002802400110019260186246002802100110019260160000004000000110019000023040007c001001100171a00962541068001001100171a00962540068001001100171a01329800068000001100171a00962460028064001100171a00962460028021001100171a0023040007c00100110016150096254106800100110016150096254006800100110016150096246002806400110016150096246002802100110016150023040007c001001100152400962540068001001100152401329800068000001100152400962460028064001100152400962461028021001100152400962460))
 (n (l 0x110026190022040207c00100110026190022040107c00100110026190233052007c8010011001e120233052007c0010011001e120223050007c0010011001e120025040007c0010011001d0c0023040007c0010011001d0c0183000007e0010011001a180183000007c0090011001a180183000207c0010011001a180183000007c0010011001a18018301420780010011001a18013298000680000011001a18018624600280240011001a18018624600280210011001a180183000007e00100110019260183000007c00900110019260183000007c0010011001926018301420780010011001926013298000680000011001926004000000400001011001926)
 (l 0x240000061100280000400000240000021100280001500002240000001100280001500000240000001100280001410000240000001100280000810000240000001100280000200002240000001100280000200000240000001100280000201c00068000201100280000201c00068000001100280000c4000b040000011100280000445802040000011100280000445801040000011100280000918820001800001100280001c1802000080000110028000091882000080000110028000025040107c001001100270e0022040107c001001100270e00500001040004001100270e00200002040004001100270e00200001040004001100270e0025040107c00100)))
 (n (n (l 0x15000000400000011002a000020000f04000022110029000020000e04000022110029000141000f04000020110029000141000e04000020110029000081000f04000020110029000081000e04000020110029000020000f04000020110029000020000e04000020110029000020000f04000000110029000020000e04000000110029000096246000082000110028010aa6562000080000110028010091882040080000110028000063b0204000000111002800152480022c00001011002800012480002c0000101100280001500002240000201100280001001400240000201100280001710000240000081100280001410000240000081100280000c0000b)
 (l 0x11002e000025040207c0010011002d190023040007c0010011002d190022040207c0010011002d19002000060400000011002d00001000060400000011002d000025040107c0010011002c190025040007c0010011002c190025040507c0012011002c000025040207c0012011002c000023040207c0012011002c000022040507c0012011002c000020000007c0002011002c000020000007c0000011002c00002000000400002011002c000020000f0400000011002c00002000020400000011002c00002000000400000011002c00009624600280202011002b01009624600000200011002b01016000020400000011002a00016000000400000011002a00))
 (n (l 0x2400000011003600002000002400000011003500002000002400000011003400001000002400000011003400001000030400000011003300002000002400000011003200002000002400000011003100014100002400002011003000008100002400002011003000002000002400002011003000142000002400000011003000002000002400000011003000016000002400002211002f00016000002400002011002f0000f000002400002011002f00002000022400002011002f00002000012400002011002f00002000002400002011002f00142000002400002011002e00002000012400002011002e00002000002400002011002e000020000024000000)
 (l 0x96246002802500110050130022040207c001001100500396800000240000001100380014e00000240000001100380014b00000240000001100380014200000240000001100380004e00000240000001100380004200000240000001100380001710000240000001100380000b00000240000001100380000200000240000001100380000100000040000001100380004200000240000201100370096800000240000001100370014e00000240000001100370014200000240000001100370004e00000240000001100370004200000240000001100370000200000240000001100370000200000240000201100360014200000240000001100360000200000))))
 (n (n (n (l 0x110202000041882000080004110202000000000000001000110056670023040907c00100110055020023040807c00100110055020023040707c00100110055020023040407c001001100550200230408070001001100550201e1882000080000110055000096246002802400110052010023040907c00100110051020023040807c00100110051020023040707c00100110051020023040407c00100110051020023040807000100110051020141000024000000110051000081000024000000110051000022040207c00100110050190263380507c00100110050130263380207c00100110050130263380107c0010011005013002000050400002011005013)
 (l 0x7d00100110203190025040207c00100110203190025040007c00100110203190022040207c00100110203190022040107c00100110203190022040007c00100110203190025040007c00100110202190022040107c00100110202190022040007c00100110202190012040f07c00100110202190160000024000020110202000010000024000020110202001420000024000000110202000160000024000000110202000150000024000000110202000140000024000000110202000010000024000000110202000010100006800c00110202000050000204000400110202000010000204000400110202000010000f04000000110202000010000604000000))
 (n (l 0xf0ac02240000001102280000f0000224000000110228000040100024000000110228000020000224000000110228000020000024000000110228000010000024000000110228000025040107c00100110209080025040007c00100110209080022040107c00100110209080022040007c00100110209080025040007c001001102080e0022040007c001001102080e00c6246002802400110207010096246102802400110207010096246002802400110207010013040007c00d00110206000013040007c00500110206000020040004000400110206000010000204000400110206000022040007c00100110205190022040107c001001102041900220402)
 (l 0x11022d00001000060400000011022d000015040107c0010011022c190025040107c0010011022c0e0012040507c0012011022c001410000f0400000011022c00016000020400000011022c00015000020400000011022c00001000020400000011022c000012040f07c00100110229190010000f04000000110229000010000e040000001102290001500002240000201102280001500000240000201102280000100000240000201102280001712c002400000811022800017100002400000811022800004000002400000611022800004700002400000211022800003700002400000211022800001000002400000211022800015000002400000011022800)))
 (n (n (l 0x2400000011023700041000002400000011023700141000002400002011023600001000002400002011023600001000002400000011023600001000002400000011023500001000002400000011023400141504030400010011023300001504030400010011023300001204030400010011023300001000030400000011023300001000020400000011023300001000002400000011023000001000022400002011022f00001000012400002011022f00001000002400002011022f00141000002400002011022e00001000002400002011022e00002000002400000011022e000015040207c0010011022d190012040207c0010011022d190020000604000000)
 (l 0x1500011040000001106570001410011040000001106570000e000110400000011065700008100110400000011065700004458110400000111063d0002530c0a07c001001104571600e30c0a07c001001104571600e3040a07c801001104571200e3040a07c00100110457120020000a04000020110457000020000a0400000011045700016000000400000011042a00001000000400000011025600000000000000000011024e6700200000240000001102380000100000040000001102380014100000240000201102370004100000240000201102370000100000240000201102370014e00000240000001102370014100000240000001102370004e00000))
 (n (l 0x1108010000200000240000001108010019329800068000c01108010000201c00068000001108010000e5041107c001401106571900e2041107c001401106571900e5041107c001001106571900e2041107c001001106571900b480110c000010110657000080ac110c0000101106570000e29811068000401106570000e01c11068000001106570000e00011040004201106570000e00011040004001106570000e00011040000201106570001271011040000101106570001201411040000101106570000871411040000101106570000e02c11040000081106570000e00011040000081106570000e700110400000611065700016000110400000011065700)
 (l 0x7c001001108011901a4580044000001110801000100ac002c0000101108010000b480002c0000101108010000200000240004201108010000200000240004001108010001600000240000201108010000400000240000201108010000200000240000201108010001071400240000101108010001071000240000101108010001001400240000101108010001714000240000081108010001713c00240000081108010000d70000240000061108010018200000240000001108010002410000240000001108010001b0000024000000110801000160000024000000110801000150000024000000110801000141000024000000110801000081000024000000))))))
 (n (n (n (n (n (l 0xe3000007c00100110a3e140096246002802400110a3d120123040007c00900110a3d1100e3000007c00300110a3d1100e0000024000000110a3d0000e0000204000000110a3d0000e0000004000000110a3d003420000024000000110a37000141000124100000110a30000081000124100000110a300034e0000024000000110a30000213048007c80100110a1e120213048007c00100110a1e120020000024000020110802000160000024000000110802000150000024000000110802000020000024000000110802000020000204000400110802000025040007c001c0110801190022040007c001c0110801190025040007c001001108011900220400)
 (l 0x110a530000e3000007c40300110a4f1100e3000107c00300110a4f1100e3000007c40300110a471100e00c0d04000000110a451600e0000d04000000110a450000e00c0304000000110a441600e0000304000000110a441200e0000204000000110a441200e0000004000000110a440000e3040207c80100110a411200e3040207c00100110a411200e3040007c00100110a400501230c0107c00900110a3f1601230c0007c00900110a3f1602530c0007c00100110a3f1600e30c0107c00100110a3f1600e30c0007c00100110a3f160123000107c00900110a3e140123000007c00900110a3e140253000007c00100110a3e1400e3000107c00100110a3e14))
 (n (l 0xc000010110a540000e7000c04000026110a540000e0000c04000020110a54000127100c04000010110a54000120140c04000010110a540000e7000c04000010110a54000087140c04000010110a540000e7000c04000002110a54000160000c04000000110a54000150000c04000000110a54000141000c04000000110a540000e0000c04000000110a54000081000c04000000110a540000e01c1006800000110a530000e01c0206800000110a53000141001004000008110a53000081001004000008110a530000e7001004000002110a53000141001004000000110a530000e0001004000000110a530000e0000204000000110a53000081001004000000)
 (l 0x87000024000010114a3db40141000024000008114a3db40081000024000008114a3db40141000024000000114a3db40081000024000000114a3db402530c0a07c00d00114457bd0126246a03802500114457bd0084800a0c000010114457b40087000a04000010114457b40141000a04000008114457b40081000a04000008114457b40120000a04000004114457b400e000000400000011403dbf002000000400000011401d89004480000c00001011400f54004480000c00001011400f400023040007c0090011400c1600b480000c00001011400c0c010714000400001011400c0c00b000000400001011400c0c00b4800c0c000010110a54000080ac0c)))
 (n (n (l 0x11800c1e00962460028024001180090a00e0000d04000000114a45bf00e0000204000000114a45bf14e0000304000000114a44bf00e0000304000000114a44bf00e0000204000000114a44bf00e0000f04000000114a42bf00e0000004000000114a42bf02530c0007c00d00114a3fbd0120000004000004114a3fb401200c0207000400114a3ebd00e3000007c00300114a3dbf00e30c0007c00900114a3dbd00930c0007c00900114a3dbd0141000024000008114a3dba0081000024000008114a3dba14e0000024000002114a3dba0120000024000002114a3dba00e0000024000000114a3dba00e0000004000000114a3dba008480002c000010114a3db4)
 (l 0x280240020000b130000000000001000200000670023040807c0010011c051fa013298000680000011c01682013298000680000011c0147e002000000400000011c0147e013298000680000011c0127a013298000680000011c01176013298000680000011c01072013298000680000011c00f6d013298000680000011c00c2300b480000c00001011c00c20009624600280240011c00908009624600280240011c009040096246002802400118a3ebd0096246002802400118a3dc0009624600280250011820700009624600280240011820700009624600280240011800f34009624600280240011800f27009624600280250011800c1e0096246002802100))
 (n (l 0x22040107c00100200026190023040107c0010020001b270023040007c0010020001b27009625400680040020001b27004625400680010020001b27013298000680000020001b2700c000000400001020001b2700b000000400001020001b27014100000400000020001b2700c0000b0400000020001b2700b000000400000020001b27008100000400000020001b27005000000400000020001b27004000000400000020001b27002000000400000020001b27009624620290210020001b27009624600280640020001b27009624600280240020001b27009624610280210020001b27009624600280210020001b27009624600280250020000b1300962460)
 (l 0x300009080022040007c001003000080e0020040004000400300006050023040007c00500300006000020040004000400300006000022040007c00100300005190025040107c00100300004190025040007c00100300004190022040107c00100300004190022040007c0010030000419016000000400000021022a00007000000400000021005600020304e107c00100200a4a1201f304c107c00100200a4a12000000000000000020026e67000000000000000020026d67000000000000100020006e67000000000000100020006d67019000000000000020004d67019000000000000020004c67019000000000000020004b67016000000400000020002a00))))
 (n (n (n (l 0x6800100300018210020000004000000300018210096246002806400300018210096246002802100300018210023040007c0010030000e25009624600280250030000e25002189608000000030000d22002480000c00001030000d220023040007c0010030000d22002000000400001030000d22002000000400000030000d22009624600280250030000d22009624600280240030000d22009624600280210030000d220023040007c0010030000c02002000000400000030000c02004004000400000630000a030025040107c00100300009080025040007c00100300009080022040107c00100300009080022040007c00100300009080096246000002000)
 (l 0x23040007c0010030001f0b002000000680000030001f0b004000000400001030001f0b002000000400001030001f0b002000000400000030001f0b004480000c00001030001c1c0183000107c0010030001c1c0183000007c0010030001c1c018625400680010030001c1c018624000680010030001c1c002000000400000030001c1c018624600280640030001c1c018624600280240030001c1c018624600280210030001c1c0023040007c0010030001b27004000000400000030001b27002000000400000030001b27009624600280240030001b27009624600280210030001b270023040007c001003000182100962541068001003000182100962540))
 (n (l 0x300024170132980006800000300024170120000004000010300024170040000004000010300024170160000004000000300024170040000004000000300024170020000004000000300024170186246002882000300024170186246002806400300024170186246002802400300024170186246002802100300024170023040007c00100300023200040000004000010300023000023040007c001003000221d00445800040000013000221d01410000040000003000221d00810000040000003000221d002480000c000010300021280023040007c00100300021280020000004000000300021280025040007c0010030002006002480000c00001030001f0b)
 (l 0x200030002b01009624600000200030002b01016000000400000030002a00152480022c00001030002800012480022c0000103000280000200000240000003000280000962460128820003000251b00b480000c0000103000251b0023040007c009003000251b0023040007c001003000251b01329800068000003000251b00200000040008003000251b00b70000040000103000251b00400000040000103000251b00500000040000063000251b00200000040000003000251b0096246003c021003000251b00962460028021003000251b00c18820000800003000251b0183000007d00100300024170183000007c00100300024170186254006800100)))
 (n (n (l 0xe3000207c00300300a3d1100e0000004010000300a3c0000e0000004008000300a3c0000e0000204020000300a3b1100e0000204020000300a3a1100e0000004020000300a3a1100c6246002802400300207010096246002802400300207010050040004000400300206000091882000000000300056000263380107c001003000501300200000240000003000392e042000002400000030003700002000002400000030003600002000002400000030003100042000002400000030003000002000002400000030003000002000002400000030002e000025040007c0010030002d191422040507c0010030002c00002000000400000030002c0008962460)
 (l 0x31005c00002000000400000031005b000025040007c0010031005a090022040007c0010031005a090023040007c001003100590d0023040007c001003100581e00200000040000003100581e0000000000001000310051670025040207c001203100080e0022040207c001203100080e013298000680000030c01c87009624600280210030800c1e00e0000004000000304a3dbf00c41c0b04000001304028af00b480000c0000103040258f00b70000040000103040258f00400000040000103040258f00e0000004000000300a49290123040007c00900300a482900e3040007c00100300a482900e3000007c40300300a461100e3040007c00100300a4305))
 (n (l 0x7c00100320009080022040007c00100320009080025040007c001003200080e0022040007c001003200080e00200000040000203200080e0025040007c001003200041900e3000107c00300310a5f1100e3000007c40300310a5e110091882000180000310060000896246000082000310060000025040507c0012031005d000022040507c0012031005d00013298050680002031005d00002000050400002031005d00009624600280240031005c01009625400680040031005c00009625400680000031005c00002000010400000031005c00002000000400000031005c00009624600280240031005c00009624600280200031005c000091882000080000)
 (l 0x2000002400002032002e000025040507c0012032002c000022040507c0012032002c00002000050400002032002c00002000000400002032002c00002000000400000032002c00009624600280202032002b01009624600280200032002b01009624600000200032002b01016000000400000032002a000022040f07c0010032002919012480022c0000103200280000200000240000203200280000200002240000003200280000200000240000003200280000445802040000013200280000218820000800203200280001e1882000080000320028000023040007c0010032001d0c0023040007c0010032000e250023040007c0010032000c0200250400)))))
 (n (n (n (n (l 0x3200632b00962460028060003200632b00962460028021003200632b0023040007c001003200622a00962460028060003200622a00962460028021003200622a0025040007c00100320061080022040007c00100320061080023040007c0010032005502015000080400000032005102014100002400000032003800008100002400000032003800142000002400000032003700042000002400000032003700041000002400000032003700002000002400000032003700142000002400002032003600002000002400002032003600002000002400000032003500002000002400002032003000002000002400000032003000002000002400002032002f00)
 (l 0x2400002032086600014100110400000032065700008100110400000032065700089624601288200032026c01009624601288200032026c0100100000040000003202330000c624600288200032020701002000022400002032006a00002000012400002032006a00002000002400002032006a000141000024000020320069000081000024000020320069000020000024000020320069001420000024000020320068000020000024000020320068000020000024000020320067000020000024000020320066000023040007c001003200652d00962460028021003200652d0023040007c001003200642c00962460028021003200642c0023040007c00100))
 (n (l 0x20040004000400400006000022040007c00100400005190022040007c001004000041900962460028020003282070100e0000024000000324a53ba01200c0004000002324a3fbd0123040007c00100324a3dc214e0000004000000324a3dc2004480000c0000103240638b02530c0007c00100320a6b1600e3000107c00300320a4f1100e0000004000000320a492900e0000304000000320a440000e30c1007c00100320a3f160253000007c00100320a3e1400e3001007c00100320a3e140123040007c00100320a3d113420000024000020320a360001410000240000203208690000810000240000203208690001410000240000203208660000810000)
 (l 0x400016150160000004000000400014230020000004000000400014230023040007c001004000131f0023040007c001004000120f01600000040000004000120f00962460028021004000120f0096254006800100400011100096246002802100400011100023040007c00100400010040023040007c0010040000f0a0023040007c0010040000d22002189608000000040000c020023040007c0010040000c02010714000400000040000c02002000000400000040000c02009624600280250040000c02009624600280240040000c02009624600280210040000c020025040207c001004000080e0025040007c001004000080e0022040007c001004000080e)))
 (n (n (l 0xc00001040006f300023040007c0010040006f30009625400680010040006f30013298000680000040006f30002000000400000040006f30009624600280240040006f30009624600280210040006f300022040507c0012040005d000025040007c0010040005a090022040007c0010040005a09142000002400000040003700042000002400000040003700002000002400000040003700002000002400002040003000142000002400000040003000002000020400000040002c0000200000240000024000280000201c0006800000400028000020000004000000400024170186246002802400400024170023040007c00100400016150096246002802400)
 (l 0x23040007c0010040007b2f0023040007c0010040007a32013298000680000040007a320023040007c00100400079330023040007c00100400078350040000004000010400078350023040007c00100400076310023040007c00100400075310020000004000000400074001420000024000000400073000020000024000000400073000022040f07c00500400072190022040e07c00500400072190022040007c00500400072190022040007c00100400072190022040f07c005004000720e0022040e07c005004000720e0022040007c001004000720e0022040007c00100400072080020000004000000400071170183000007c001004000703400b48000))
 (n (l 0x4100080e0022040007c001004100080e0025040007c00100410004190022040007c0010041000419002000000400000040c051fa002000000400000040c0147e0040000004000000404077ff0020000004000000404077ff0020000004000000404077fc0141001004000000400a53000081001004000000400a530000e0000d04000000400a450000e0000304000000400a441200e0000204000000400a441200e0000d04000000400a440034e0000024000000400a37003420000024000000400a3700009624601288200040027d0100200000040000004002330000c624600280240040020701009624600280240040020701002000000400000040007c00)
 (l 0x400000041002a000022040e07c00100410029190040000024000000410028000020000024000000410028000023040007c0010041001f0b002000000400000041001f0b009624600280240041001f0b0023040f07c0010041001d0c0023040007c0010041001d0c005000000400000041001b270023040007c00100410014230023040007c00100410010040023040007c0010041000f0a00b480000c00001041000c02015000000400000041000c02009624600280210041000c0200b000000400000041000b13009624600280210041000b13009624600280200041000b130025040007c00100410009080022040007c00100410009080025040007c00100))))
 (n (n (n (l 0x20000004000000410081370096246002802100410081370023040007c00100410080020023040007c0010041007f0e002000000400000041007f0e002000000400000041007e0e009624600280200041007e0e0020000024000000410073000022040007c00100410072190022040f07c00100410072080141000024000020410066000081000024000020410066000020000024000020410066000022040507c0012041005d0014e0000024000000410037001420000024000000410037000420000024000000410037000020000024000000410030000022040507c0012041002c00002000000400000041002c00009624600280202041002b0101600000)
 (l 0x41008a00004480000c000010410089390023040007c00100410089390040000004000000410089390020000004000000410089390096246002806000410089390096246002802100410089390096246002802000410089390025040007c00100410088380022040007c00100410088380022040007c001004100870c0023040007c001004100860b00200000040000004100860b0023040007c001004100850b0025040007c00100410084070022040007c001004100840700b0000004000000410084070040000004000000410084070020000004000000410084070096246002802000410083010023040007c0010041008137009625400680010041008137))
 (n (l 0x2802000410207010023040f07c001004100903c0023040007c001004100903c0023040007c0010041008f3a009625400680010041008f3a002000000400000041008f3a009624600280600041008f3a009624600280210041008f3a004000002400000641008e00017100002400000041008e00004000002400000041008e00002000002400000041008e000022040f07c0010041008d190022040007c0010041008d190022040f07c0010041008d0e0023040007c0010041008c3d004000000400001041008c3d0183000007e0010041008b3b0183000007c0010041008b3b013298000680000041008b3b018000000400000041008b3b0020040004000400)
 (l 0x25040007c00100500004190022040007c0010050000419013298000680000041c0147e00962460028020004180830000e0000004000000414a82bf002000000400040041408ac50141001004000000410a91000107141004000000410a91000107101004000000410a91000100141004000000410a910000f0001004000000410a910000b0001004000000410a91000087001004000000410a91000081001004000000410a91000080001004000000410a910000e3000107c00300410a4f1100e3000007c40300410a471100e0000304000000410a441234e0000024000000410a37003420000024000000410a370000c62460028020004102070100962460)))
 (n (n (l 0x50008a000096246002802400500083010020000024000000500073000020000024000020500066000025040007c00100500061080022040007c00100500061080025040507c0012050005d000022040507c0012050005d000420000024000000500037000020000024000020500030000020000024000000500030000022040007c0010050002d190022040007c0010050002c19002000000400000050002c00009624600280202050002b010023040007c00100500016150096246002802100500016150023040007c0010050000f0a009624600280250050000b130025040007c00100500009080022040007c00100500009080022040007c001005000080e)
 (l 0x7c0010050009419004480000c0000105000933e0023040107c001005000933e0023040007c001005000933e00962540068044005000933e00962541068001005000933e00962540068001005000933e01329800068000005000933e00400000040000105000933e00400000040000005000933e00200000040000005000933e00962460028024005000933e00962460028021005000933e00b480000c000010500092570023040007c00900500092570023040007c00500500092570023040007c00100500092570132980006800000500092570107140004000010500092570020000004000000500092570096246002802400500092570023040007c00500))
 (n (l 0x96246002802100510011100023040007c0050051000f0a0023040007c0010051000f0a0023040007c0010051000c02002000000400002051000c02015000000400000051000c02009624600280210051000c020025040007c001005100080e0022040007c001005100080e002000000400000050409abf0023040007c00100500099650040000004000010500099650023040007c00100500098650023040007c001005000975b00400000040000105000975b00200000040000005000975b00b480000c0000105000965a0023040007c001005000965a00500000040000005000965a0020040004000400500095000025040007c001005000941900220400)
 (l 0x51001c1c018624000680050051001c1c018625400680010051001c1c018624000680010051001c1c013298000680000051001c1c018000000400000051001c1c018624600280640051001c1c018624600280250051001c1c018624600280210051001c1c0023040007c0010051001b27005000000400000051001b27004000000400000051001b27002000000400000051001b270023040007c001005100171a01500000040000005100171a00200000040000005100171a00962460028021005100171a0023040007c00100510015240020000004000000510015240096246002802100510015240023040007c001005100142300962460028021005100131f)))))))

/-- Rows 64..127 of `propsVectorsTable`. -/
def propsVectorsTable_rows1 : Tree :=
 (n (n (n (n (n (n (l 0x7c0050051008a000096246002802400510083010096246002802000510083010023040007c00100510080020020000024000020510073000020000024000000510073000141000024000020510066000081000024000020510066000020000024000020510066000025040007c00100510061080022040007c0010051006108002000000400000051005c0000962460028024005100520104e0000024000000510037000420000024000000510037000023040007c0010051002d19002000000400000051002c000021882000080020510028000025040007c00100510026190022040007c00100510026190023040007c001005100251b0183000007c00100)
 (l 0x13298000680000051009b71009624600280210051009b710025040007c00100510095190023040007c00100510095190022040f07c00100510095190022040007c00100510095190023040007c00500510095000020040004000400510095000025040007c00100510094190022040f07c00100510094190022040e07c00100510094190022040007c001005100941900b480002c00001051008e00002304002400050051008e00002000002400000251008e00017100002400000051008e00014100002400000051008e00014000002400000051008e00008100002400000051008e00004000002400000051008e00002000002400000051008e0000230400))
 (n (l 0x51009f630023040007c0090051009f630023040007c0010051009f63013298000680000051009f63004000000400001051009f63009624600280210051009e08004480000c00001051009d6d0023040007c00d0051009d6d0023040007c0050051009d6d0023040007c0010051009d6d013298000680000051009d6d004480000c00001051009c520023040007c0010051009c52009625400680010051009c52013298000680000051009c52004000000400001051009c520096246002802d0051009c52009624600280240051009c52009624600280210051009c520023040007c0010051009b71009625400680440051009b71009625400680010051009b71)
 (l 0x68001005100a36e00200000040000005100a36e00962460028021005100a36e004480000c0000105100a24f0023040007c001005100a24f01329800068000005100a24f00962460028024005100a24f00962460028021005100a24f004480000c0000105100a16f0023040007c001005100a16f00962540068001005100a16f01329800068000005100a16f00962460028064005100a16f0023040007c005005100a0080025040007c001005100a0080023040007c001005100a0080022040007c001005100a00800200000040000005100a00800962460028024005100a00800962460000020005100a00800b480000c00001051009f63004480000c000010)))
 (n (n (l 0xe3000007c40300510a471100e3040007c00100510a400501410000240000205108660000810000240000205108660004e00000040000005100ab0004e00000040000005100aa000023040007c001005100a96c00200000040000005100a96c0023040007c001005100a8680023040007c001005100a76b00962460028020005100a60100200000040000005100a60000200000040000005100a500004480000c0000105100a4420023040007c001005100a44200962540068001005100a44201329800068000005100a44200200000040000005100a44200962460028021005100a4420023040007c001005100a36e00962540068044005100a36e00962540)
 (l 0x52002d00016000000400000052002a00015000000400000052002a000023040007c00100520021280040000004000002520021280233052007c0010052001e120223050007c0010052001e12018624000680050052001c1c018624000680010052001c1c018624600280210052001c1c002000000400000052001b000160000004000000520010040023040007c0010052000f0a009625400680010052000f0a009624600280210052000f0a009624600280240051c0a008009624600280240051c00908009624600280200051802bb100e0000004000000514a82bf00400000040004005140a2f334e0000004000000510aaa003420000024000000510a7300))
 (n (l 0x28024005200ae6a01862460028021005200ae6a0023040007c001005200ad28002480000c0000105200ac7e0023040007c001005200ac7e00200000040000105200ac7e00962460028024005200ac7e00962460028021005200ac7e00962460028020005200ac7e00200000040000005200975b0025040007c0010052009419004000002400000052008e000183000007c0010052008b3b018000000680000052008b3b0025040007c00100520084070022040007c00100520084070096246002802400520084070096246002802400520083010025040007c00100520061080022040007c00100520061080020000024000000520030000020000604000000)
 (l 0x962460028021005200b54e0023040007c001005200b30a00200000040000005200b30a00962460028024005200b30a004480000c0000105200b1820023040007c001005200b18200400000040000105200b18200200000040000005200b18200962460028024005200b182004480000c0000105200b0830023040007c001005200b08300400000040000105200b083018480000c0000105200ae6a0183000007c009005200ae6a0183000007c001005200ae6a01862540068001005200ae6a01862400068001005200ae6a01329800068000005200ae6a01800000040000005200ae6a01862460028060005200ae6a01862460028024005200ae6a00962460))))
 (n (n (n (l 0x5200b87300962460028021005200b8730183000007e001005200b77f0183000007c009005200b77f0183000007c005005200b77f0183000007c001005200b77f01800000040000105200b77f01800000040000005200b77f01862460028024005200b77f01862460028021005200b77f0183000007c009005200b61c0183000007c001005200b61c01862400068005005200b61c01800000040000005200b61c004480000c0000105200b54e0023040007c001005200b54e00962540068044005200b54e00962540068001005200b54e01329800068000005200b54e00400000040000105200b54e00200000040000005200b54e00962460028024005200b54e)
 (l 0x40000005200c0020023040007c001005200bf580023040007c001005200be7a00200000040000005200be7a0023040007c001005200bd7d00200000040000005200bd7d0023040007c001005200bc7500400000040000105200bc7500400000040000005200bc750023040007c001005200bb8500200000040000005200bb850023040007c001005200ba7400400000040000105200ba7400200000040000005200ba740233052007c001005200b9120223050007c001005200b912004480000c0000105200b8730023040007c001005200b87300962540068004005200b87300962540068001005200b87301329800068000005200b8730096246002806400))
 (n (l 0x100000040000005202440096800000240000005202370014e00000240000005202370014100000240000005202370004e000002400000052023700041000002400000052023700001000060400000052022d0000200003040000005200c3000143040007c001005200c2470083040007c001005200c2470023040007c001005200c24700218960800000005200c178004480000c0000105200c1780023040107c001005200c1780023040007c001005200c17800962540068001005200c17800200000040000005200c17800962460028064005200c17800962460028024005200c17800962460028021005200c17800962460028020005200c17800200000)
 (l 0x5240af960023040007c001005240af9100e3000007c40300520ac51100e0000d04000000520ac41434e0000d04000000520ac40000e0000d04000000520ac40000e0000204000000520ac4000213048007c00100520ab4123410000024000000520a730000e3000107c00300520a4f1100e3000007c40300520a47113410000024000000520a380034e0000024000000520a37000213048007c00100520a1e1214150400040001005202c3000015040d040001005202c30000150400040001005202c3000010000d040000005202c30000100003040000005202c30000100002040000005202c30000100000040000005202c300001000002400000052027300)))
 (n (n (l 0x680010060000f0a009624600280210060000f0a0023040007c0010060000c02009624600280210060000c020023040007c0010052c0b3f1009624600280240052c0b3ed00962460028024005280af9c00962460028024005280af9a00962460028024005280af9800962460028024005280af9200962460028024005280af9100e0000304000000524a44bf0023040007c009005240b5f600200000040000005240b2e000200000040000005240b2d201500000040000005240b2c700200000040000005240b2c70023040007c001005240afa40023040007c001005240afa20023040007c001005240af9800962540068004005240af980020000004000400)
 (l 0x400000040000006000903c00962460028060006000903c0096246002802000600083010020000024000020600066000025040007c00100600061080022040007c001006000610800200000040000006000510201710000240000006000380004200000240000006000370014e000002400000060003000142000002400000060003000016000000400000060002a000022040e07c0010060002919009624600280240060001f0b0023040007c0010060001b2700c000000400000060001b27009624600280210060001b270023056007c001006000171a0023040007c001006000171a00200000040000006000131f0023040007c0010060000f0a00962540))
 (n (l 0x6000c94100962540068001006000c94101329800068000006000c94100200000040000106000c94100200000040000006000c94100962460028060006000c94100962460028021006000c9410023040007c001006000c80b0023040007c001006000c73f00962540068040006000c73f00962540068001006000c73f00200000040000006000c73f00962460028021006000c73f00962460028020006000c73f0023040007c001006000c65400200000040000106000c65400962460028020006000c6543a703580040000006000c3000025040007c001006000a0080022040007c001006000a0080025040007c00100600095190022040007c0010060009519)
 (l 0x4000000600acc0000e30c0007c00100600acb1600e3000007c00100600acb1434e0000d04000000600ac40014e0000d04000000600ac4003410000004000000600ac30000e3040007c00100600a4305b680000024000000600a38003420000024000000600a38003420000024000000600a370034e0000024000000600a30003420000024000000600a300014150400040001006002c3000015040d040001006002c30000150400040001006002c3000010000d040000006002c30000100000040000006002c30000200000040000006000d00004e00000040000006000cc000023040007c001006000ca82004480000c0000106000c9410023040007c00100)))))
 (n (n (n (n (l 0x4000002400000061008e00002000002400000061008e000022040007c001006100870c0025040007c00100610084070022040007c00100610084070020000024000020610066000025040007c0010061001d0c0023040007c0010061001d0c0183000007c0010061001a1800200000040000006100120f002189608000000061000c02016000000400000061000a0334e0000304000000604ac4bf00e3000007c40300600ad111b680000004000000600acf0034e0000004000000600acf00b680000004000000600ace0034e0000004000000600ace00b680000004000000600acd0034e0000004000000600acd003420000004000000600acd0034e00000)
 (l 0x6100d47601329800068000006100d47600400000040000006100d47600962460028064006100d47600962461028021006100d47600962460028021006100d4760023040507c001206100d30200200000040000206100d3020023040007c001006100d20200962460028025006100d20200962460028024006100d20200200000040000006100cd000020000f040000006100c30000962460028021006100a0080023040007c0010061009b71009624600280640061009b71009624600280210061009b710022040f07c00500610095190025040007c00100610095190022040007c00100610095190023040007c001006100903c003000002400000261008e00))
 (n (l 0x7c001006100d99700962540068044006100d99700962540068001006100d99701329800068000006100d99700400000040000006100d99700200000040000006100d99700962460028021006100d9970023040007c005006100d85c0023040007c001006100d85c00962540068001006100d85c00962460028025006100d85c0023040007c001006100d7560023040007c001006100d68d004480000c0000106100d5730023040007c009006100d5730023040007c001006100d57300962540068001006100d57300962460028064006100d57300962460028021006100d573004480000c0000106100d4760023040007c001006100d4760096254006800100)
 (l 0x25040007c001007000080e009188200008000063c00c14009188200008000063002800016000000400000062002a0000962460028024006180af930023040007c001006140af980023040007c001006140af9634e0000004000000610ace0000e3000107c00300610a4f1100e3000007c40300610a47110023040007c001006100dc9900962540068044006100dc9900962540068001006100dc9901329800068000006100dc9900962460028024006100dc9900962460028021006100dc9900200000040000006100db710023040007c001006100da9801329800068000006100da98004480000c0000106100d9970023056007c001006100d99700230400)))
 (n (n (l 0x70007f0e0020000024000000700073000023040007c0010070006f300025040007c00100700061080022040007c00100700061080023040007c001007000581e00962460028024007000520104e000002400000070003800142000002400000070003000002000002400000070003000016000000400000070002a00015000000400000070002a000023040007c001007000232001329800068000007000182100962460028021007000171a0096246002802100700016150023040007c00100700015240096246002802100700015240023040007c00100700010040023040007c0010070000f0a002189608000000070000c00002000000400000070000a03)
 (l 0x7c001007000b61c01862400068005007000b61c01862460028025007000b61c00200000040000007000a50e0022040f07c005007000a0080025040007c001007000a0080022040007c001007000a0080023040007c00100700099650040000004000010700099650023040007c00100700098650025040007c00100700095190023040007c00100700095190022040007c0010070009519004480002c00001070008e00004000002400001070008e00014100002400000870008e00004000002400000270008e00004000002400000070008e00002000002400000070008e000096246002802400700083010096246002802100700083010020000004000000))
 (n (l 0x962460000020007000e0010023040007c001007000de9f00200000040000007000de9f004480000c0000107000dd860023040007c001007000dd8600962460028024007000dd86002480000c0000107000d9970023040007c001007000d9970023040007c001007000d20200962460028021007000d20214e00000040000007000cf0004e00000040000007000cf0096800000040000007000cd0014e00000040000007000cd0014200000040000007000cd0004e00000040000007000cd0004200000040000007000cd0000200000040000007000cd0004e00000040000007000cc0000962460028060007000c94100100000040000007000c30001830000)
 (l 0x7000e59d00962540068044007000e59d00962540068001007000e59d00200000040000107000e59d00200000040000007000e59d00962460028024007000e59d00962460028021007000e59d0023040007c009007000e4890023040007c001007000e48900962540068044007000e48900962541068001007000e48900962540068001007000e48900962460028024007000e48900962460028021007000e48900200000040000007000e3000023040007c001007000e288004480000c0000107000e1870023040007c001007000e18700200000040000007000e18700962460028021007000e18700962460028020007000e18700962460028024007000e001))))
 (n (n (n (l 0x7c001007000ea7900400000040000107000ea7900f00000040000007000ea7900200000040000007000ea7900962460028024007000ea790023040007c001007000e9a000500000040000007000e9a000200000040000007000e9a000962460028024007000e9a00023040007c001007000e8530022040f07c005007000e7190022040007c001007000e7190022040007c001007000e70e00200400040004007000e7000023040007c001007000e69100962540068001007000e69101329800068000007000e69100962460028064007000e69100962460028024007000e69100962460028021007000e691004480000c0000107000e59d0023040007c00100)
 (l 0x23040007c001007000f08e00200000040000007000f08e0023040007c001007000ef8f00200000040000007000ef8f0183000007c009007000ee1c0183000007c001007000ee1c01329800068000007000ee1c01862460028025007000ee1c004480000c0000107000ed950023040007c001007000ed9501329800068000007000ed95004480000c0000107000eca30023040007c001007000eca300962540068001007000eca301329800068000007000eca300200000040000007000eca300962460028064007000eca300962460028021007000eca30023040007c001007000eb8c00200000040000007000eb8c00962460028024007000eb8c00230400))
 (n (l 0x7000f8a600962460028064007000f8a600962460028024007000f8a600962460028021007000f8a60023040007c001007000f67b00200000040000107000f67b00200000040000007000f67b0023040007c001007000f5a50023040007c001007000f49000200000040000007000f490004480000c0000107000f34b0023040007c009007000f34b0023040007c001007000f34b01329800068000007000f34b00400000040000107000f34b00200000040000007000f34b00962460028024007000f34b01710000040000007000f20001200000040000007000f20000200000040000007000f2000023040007c001007000f15900962460028021007000f159)
 (l 0x7c001007000fc920023040007c001007000fc920022040007c001007000fc9201329800068000007000fc9200200000040000007000fc920023040007c001007000fb9e00962541068001007000fb9e00962540068001007000fb9e01329800068000007000fb9e00200000040000007000fb9e00962460028064007000fb9e00962460028024007000fb9e00962460028021007000fb9e00200000040000007000fa0000200000040000007000f921004480000c0000107000f8a60023040007c001007000f8a600962541068001007000f8a600962540068001007000f8a600200000040008007000f8a600b00000040000107000f8a60050000004000000)))
 (n (n (l 0x2000000400000080005c00009624600280240080005208002000000400000080002d00015000000400000080002a000025040007c00100800020060022040007c00100800020060023040007c001008000171a0023040007c00100800015240023040007c001008000120f009625400680010070d0e403009624600280240070d0e403009624600280210070d0e40300962460028024007090df0100962460028024007080af9600918820000800007050f70500200000040000007050df01b680000004000000700acf0034e0000004000000700acf0034e0000004000000700ace00b680000004000000700acd0034e0000004000000700acd0000250400)
 (l 0x8000f8a60022040007c001008000e7190023040007c001008000e48900962460028021008000e489004480000c0000108000d9970023040007c001008000d99700500000040000008000d99700400000040000008000d99700962460028024008000d99700962460028020008000d99700200000040000008000d68d0023040007c001008000d20200962460028025008000d20204e00000040000008000cd000023040007c001008000b30a00500000040000008000b30a00962460028021008000a0080023040007c00100800098650025040007c00100800095190023040007c00100800095190022040007c0010080009519002000002400000080007300))
 (n (l 0x7c001008001044c0022040007c001008001044c00200000040000008001044c004480000c000010800103a40023040007c00100800103a40023040007c00100800102a20020000004000000800102a20023040007c00100800101650022040007c001008000ff060143040007c001008000fe9c0083040007c001008000fe9c0023040007c001008000fe9c004480000c0000108000fda10183000007c001008000fda101862540068001008000fda101329800068000008000fda101800000040000008000fda101862460028064008000fda101862460028021008000fda1004480000c0000108000f8a60023040007c001008000f8a60096246002802100)
 (l 0x962460028021009000a16f0025040007c0010090009519004000002400000090008e00009624600280200090008301002000000400000090007f0e0020000024000000900030000023040007c001009000171a00200000040000009000171a0023040007c0010090001615b680000004000000800b050034e0000004000000800b050000e3000007c40300800b001134e0000004000000800acf0034e0000004000000800ace007a90246004000000800acd0034e0000004000000800acd0000e3000007c40300800a4711004480000c0000108001067000400000040000108001067000200000040000008001067000962460028020008001067000250400))))))
 (n (n (n (n (n (l 0x900108a80023040007c00100900108a80096254006800100900108a80132980006800000900108a80040000004000010900108a80040000004000000900108a80020000004000000900108a80096246002806400900108a80096246002802100900108a80025040007c00100900107a70022040007c00100900107a70132980006800000900107a70140000004000000900107a70096246002802c00900107a70096246002802400900107a70096246002802100900107a700e00000040000009001050000962460028021009000e59d0023040007c001009000d20200962460028021009000d20200962460028020009000d20200218960800000009000d200)
 (l 0x40000009002c3000025040007c0010090010fab0022040007c0010090010fab004480000c00001090010eaa0023040007c0010090010eaa009625400680010090010eaa013298000680000090010eaa004000000400001090010eaa004000000400000090010eaa002000000400000090010eaa009624600280640090010eaa009624600280240090010eaa009624600280210090010eaa005000000400000090010d1b0023040007c0010090010ca9009625400680010090010ca900b000000400001090010ca9005000000400000090010ca9009624600280210090010ca9009624600280210090010a380022040007c0010090010908004480000c000010))
 (n (l 0x96246002802400a00083010020000024000000a00073000023040007c00100a000581e0020000024000000a00030000160000004000000a0002a000096246002806400a000171a0096246002802100a000171a0096246002802400a000120f0096246002802100a000120f0023040007c00100a00010040020000004000000a0001004004000002400000090408e0600e3000007c00300900b119a00e3000007c00300900b109a0123040007c00900900b0b9ab680000004000000900b050034e0000004000000900b050034e0000004000000900acf00b680000004000000900acd0034e0000004000000900acd0000e0000d04000000900ac40000100000)
 (l 0xa00118b10096246002802000a00118b10023040007c00100a0011722004480000c000010a00116b00023056007c00100a00116b00023040007c00100a00116b00096254006800100a00116b00040000004000010a00116b00050000004000000a00116b00040000004000000a00116b00096246002806400a00116b00096246002802800a00116b00096246002802100a00116b00023056007c00100a00114af0023040007c00100a00114af0132980006800000a00114af0096246002806400a00114af0096246002802400a00114af0096246002802100a00114af0020000004000000a001050004e0000004000000a000cf000040000024000000a0008e00)))
 (n (n (l 0x2802400a08083ad0096254006800400a040afac00e3000007c00300a00b159600e3000007c00100a00b131400e3000007c40300a00b12110123040007c00900a00b0b96b680000004000000a00b050034e0000004000000a00b050034e0000004000000a00acf0000e3000007c00100a00acb1404e0000004000000a00ac40000e3000007c40300a00a471100e3040007c00100a00a4005004480000c000010a00118b10023056007c00100a00118b10023040007c00100a00118b10096254006800100a00118b10050000004000000a00118b10040000004000000a00118b10020000004000000a00118b10096246002806400a00118b10096246002802100)
 (l 0x21896080000000b000c1780023040007c00100b000b30a0096246002802100b000b30a0020000004000000b0009a000025040007c00100b00095190022040007c00100b00095190160000004000000b00092570096246002802000b00092570040000024000010b0008e000040000024000000b0008e000020000024000000b0008e000023040007c00100b00089390020000004000000b00089390020000024000000b00073000023040007c00100b000251b0050000004000000b00016150096246002802000b00015240020000004000000b00011100096246002802000b00010040263380007c00100b0000b130022040007c00100b0000a0300962460))
 (n (l 0xb0011db60023040007c00100b0011cb30096254006800100b0011cb30132980006800000b0011cb30096246002806400b0011cb30096246002802100b0011cb30023040007c00100b0011b0c0023040007c00100b0011ab20096254006800100b0011ab20020000004000000b0011ab20096246002806400b0011ab20096246002802400b0011ab20096246002802100b0011ab204e0000004000000b00119000023040007c00100b00116b00096246002802000b0010eaa0183000007c00100b000fda104e0000004000000b000e3000023040007c00100b000d4760096254006800100b000d4760096246002802000b000d2020420000004000000b000c300)
 (l 0xc000010b00123b70023040007c00100b00123b70020000004000000b00123b70096246002802400b00123b70023040007c00100b00122b80020000004000000b00122b8004480000c000010b00121b50025040007c00100b00121b50022040007c00100b00121b50040000004000010b00121b50020000004000000b00121b50020000004000000b0012000002480000c000010b0011fb40023040007c00100b0011fb40096254006800100b0011fb40096246002802100b0011fb40150000004000000b0011e000020000004000000b0011e000023040007c00500b0011db60023040007c00100b0011db60132980006800000b0011db60096246002802500))))
 (n (n (n (l 0x22040007c00100c000e7190023040007c00100c000dc990023040007c00100c000d85c0096254006800100c000d85c0096246002802100c000d85c0420000f04000000c000c3000025040007c00100c00095190022040007c00100c00095190040000024000010c0008e000020000024000000c00073000183000007c00100c0001a180186246002806400c0001a180050000004000000c00015240096246002802000b080e47c00e3000007c00300b00b109ab680000004000000b00b05003ce0000004000000b00b050034e0000004000000b00b050034e0000004000000b00acf0000e3000007c40300b00a471100e3040007c00100b00a400500248000)
 (l 0xc0012b230040000004000000c0012b230020000004000000c0012b230020000004000000c00128000023040007c00900c00127ba0023040007c00100c00127ba0132980006800000c00127ba0020000004000000c00127ba0096246002802400c00127ba0023040007c00100c00126bb0096254006800100c00126bb0050000004000000c00126bb0096246002806400c00126bb0096246002802100c00126bb0023040007c00100c00125b90141882000000000c001244700c1882000000000c00124470081882000000000c00124470420000004000000c00119000023056007c00100c00116b00023040007c00100c0010eaa0023040007c00100c00107a7))
 (n (l 0x24000000d00073000096246002802100d00018210023040007c00100d000171a0096246002802c00d000131f00e0000d04000000c14a44bf0020000004000000c0c12b7e0023040007c00100c040af5334e0000004000000c00b2a0002530c0007c00100c00b29160253000007c00100c00b291400e3000007c00300c00b109a0123040007c00900c00b0b000120000004000000c00b0b00b680000004000000c00b050034e0000004000000c00b050034e0000004000000c00ae30034e0000004000000c00acf000023040007c00100c0012cbc0132980006800000c0012cbc0160000004000000c0012cbc0096246002802400c0012cbc0150000004000000)
 (l 0x96246002802400d0012fbe0096246002802100d0012fbe0023040007c00100d0012dbd0020000004000000d0012dbd0023040007c00100d0010eaa0040000004000010d0010eaa04e0000004000000d000fa000023040f07c00500d000e7190022040007c00100d000e7190020000004000400d000e7000096246002802100d000e0010096254006800100d000d9970096246002802100d000d9970023040007c00100d000d4760023040007c00100d000d20204e0000004000000d000c3000020000004000000d000a5000025040007c00100d00095190022040007c00100d00095190096246002806000d0008f3a0020000024000000d0008e0000200000)))
 (n (n (l 0xd00b050034e0000004000000d00b050034e0000004000000d00acf0000e3000007c40300d00a5e1100e3000007c40300d00a471100e3000007c40300d00a461100e3040007c00100d00a43050023040007c00100d00134c00040000004000002d00134c00096246002802100d00134c00132980506800000d00132000020000004000000d00132000023040007c00100d0013183004480000c000010d0012fbe0023056007c00100d0012fbe0023040007c00100d0012fbe0096254006804400d0012fbe0096254106800100d0012fbe0096254006800100d0012fbe0132980006800000d0012fbe0040000004000000d0012fbe0096246002806400d0012fbe)
 (l 0xe3000007c00300d00b339a0023000007c00300d00b30bf00e3000007c40300d00b2e1134e0000004000000d00b2a0000e3000007c00300d00b119a00c6246002802200d00b0bbf0096254006800500d00b0b11b680000004000000))
 (n (l 0x0)
 (l 0x0)))))
 (n (n (n (n (l 0x0)
 (l 0x0))
 (n (l 0x0)
 (l 0x0)))
 (n (n (l 0x0)
 (l 0x0))
 (n (l 0x0)
 (l 0x0))))
 (n (n (n (l 0x0)
 (l 0x0))
 (n (l 0x0)
 (l 0x0)))
 (n (n (l 0x0)
 (l 0x0))
 (n (l 0x0)
 (l 0x0)))))))

/-- UnicodeData/CharPropsData.py:3370-3809 `propsVectors`: 6999 entries of 32 bits. -/
def propsVectorsTable : Table :=
 { size := 6999, bits := 32, depth := 7, rows := (n propsVectorsTable_rows0 propsVectorsTable_rows1) }

/-- UnicodeData/CharPropsData.py:3811 `propsVectorsColumns`. -/
def propsVectorsColumns : Nat := 0x3

/-- UnicodeData/CharPropsData.py:3813-3831 `scriptExtensions`: 262 entries of 16 bits. -/
def scriptExtensions : Table :=
 { size := 262, bits := 16, depth := 3, rows := (n (n (n (l 0x809e008900240023001f001a001900150010000f000a0004809e0097008900240023001f001a001900150010000f000a000480b600020020000280c0002500028022000280b700b600a7007b00790054002200020011000280250022000280c000b600250022000280190008000600088038000800020008805900088019800e)
 (l 0x7c0023808900230078000f809d000f0074001080a40010006f00048076003a00040069000a80b200a00078000a80bb00b300b200af00a0009e009900910089003a0030002400230021001f001a00150010000f000a000480bb00b300b200af00a0009e009900910089003a002400230021001f001a00150010000f000a0004))
 (n (l 0x80118016001400120011000580290016001400120011000580890019000a801b001980220008800480bb009e00890024001f0015000a000480bb000a80240023001f001a0015000a8097000a800a00048089000a80890015000a0004800a805a001b802d002c002b002a8019000c0084001c80760034001c0080001580bb0015)
 (l 0x2f80530031002f00f8000280250002804e0037804f001c001900ef000a8023000a0098000a80bb00b200a300a0009e009d00990091007800150010000f000a80bb00b200a300a0009e009d009900910078001a00150010000f000a80b200a300a0009e009d0099009100780010000f000a8019001180160014001180110005)))
 (n (n (l 0x8087007c0089800700028031)
 (l 0x0))
 (n (l 0x0)
 (l 0x0)))) }

end Verif.Data
