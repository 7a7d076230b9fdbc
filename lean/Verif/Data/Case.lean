import Verif.Model.Table
/-!
# Tables of `UnicodeData/CasePropsData.py` and `flagsOffset` of `UnicodeData/CaseProps.py`

Generated by tools/gen_data.py from the text of /repo. Rows hold 64 entries, least significant first.
-/
namespace Verif.Data

local notation "l" => Tree.leaf
local notation "n" => Tree.node

/-- Rows 0..63 of `caseIndex`. -/
def caseIndex_rows0 : Tree :=
 (n (n (n (n (n (n (l 0x4ff04f704f204ea04eb04e304db04d304ce04c6035d035504c104b904b104a904a10499049104890482047a0475046d04710469046104590451044904410439043104290421041904110409040103f903f103e903e103d903d103c903c103b903b303ab03a3039b0393038b0384037c0374036c0364035c034e0346033e0336)
 (l 0x3550608060005f905f1035505ea05e3035505df05d70355035505d305cc0355035505c60355053f058d054805be05bc058d05b4057d053f058d05ad04ec05a50355059d03550595058d0585057d053f0575056d054005580565056005400558055005480540053f053b0533052b0529052105190355035503550512050e0507))
 (n (l 0x355066a06620355054c054c065c065c035503550355035503550355035503550355035503550355035503550355035503550355035503550355035503550355064c06540654035503550644035503550355035503550355035503550355035503550355035503550355035503550355063c0634062d0625061d0615060d0355)
 (l 0x78f0787077f0777076f0767075f0757037c074f037c07470744037c073c037c072c0734071c07240714070c0709070406fc06f406ec06e806e0035506da035506d5035506ce05bc06c606c006b8057c035506b506ad035506a5069d03550696035503550355035503550355068f035503550355068706810355067a03550672)))
 (n (n (l 0x3550355035503550355035503550355035503550355035503550355035503550355035503550355035503550355035507f507ef07e903550355035503550355035503550355035503550355035503550355035503550355035503550355035503550355035507e607de07d607ce07c607be07b6035507ae07a60355079e0797)
 (l 0x3550355035503550355035503550355035503550355035503550355067703550832035503550355082a03550825081e0816037c037c037c080e0806080207fd03550355035503550355035503550355035503550355035503550355035503550355035503550355035503550355035503550355035503550355035503550355))
 (n (l 0x3550355035503550355035503550355035503550355035503550355035503550355035503550355035503550355035503550355035503550355035503550355035503550355035503550355035503550355035503550355035503550355035503550355035503550355035503550355084903550355084103550355083a053e)
 (l 0x355035503550355035503550355035503550355035503550355035503550355035503550355035503550355035503550355035503550355035503550355035503550355035503550355035503550355035503550355035503550355035503550355035503550355035503550355035503550355035503550355035503550355))))
 (n (n (n (l 0x355035503550355035503550355035503550355035503550355035503550355035503550355035503550355035503550355035503550355035503550355035503550355035503550355035503550355035503550355035503550355035503550355035503550355035503550355035503550355035503550355035503550355)
 (l 0x355035503550355035503550355035503550355035503550355035503550355035503550355035503550355035503550355035503550355035503550355035503550355035503550355035503550355035503550355035503550355035503550355035503550355035503550355035503550355035503550355035503550355))
 (n (l 0x355035503550355035503550355035503550355035503550355035503550355035503550355035503550355035503550355035503550355035503550355035503550355035503550355035503550355035503550355035503550355035503550355035503550355035503550355035503550355035503550355035503550355)
 (l 0x355035503550355035503550355035503550355035503550355035503550355035503550355035503550355035503550355035503550355035503550355035503550355035503550355035503550355035503550355035503550355035503550355035503550355035503550355035503550355035503550355035503550355)))
 (n (n (l 0x355035503550355035503550355035503550355035503550355035503550355035503550355035503550355035503550355035503550355035503550355035503550355035503550355035503550355035503550355035503550355035503550355035503550355035503550355035503550355035503550355035503550355)
 (l 0x355035503550355035503550355035503550355035503550355035503550355035503550355035503550355035503550355035503550355035503550355035503550355035503550355035503550355035503550355035503550355035503550355035503550355035503550355035503550355035503550355035503550355))
 (n (l 0x355035503550355035503550355035503550355035503550355035503550355035503550355035503550355035503550355035503550355035503550355035503550355035503550355035503550355035503550355035503550355035503550355035503550355035503550355035503550355035503550355035503550355)
 (l 0x355035503550355035503550355035503550355035503550355035503550355035503550355035503550355035503550355035503550355035503550355035503550355035503550355035503550355035503550355035503550355035503550355035503550355035503550355035503550355035503550355035503550355)))))
 (n (n (n (n (l 0x355035503550355035503550355035503550355035503550355035503550355035503550355035503550355035503550355035503550355035503550355035503550355035503550355035503550355035503550355035503550355035503550355035503550355035503550355035503550355035503550355035503550355)
 (l 0x355035503550355035503550355035503550355035503550355035503550355035503550355035503550355035503550355035503550355035503550355035503550355035503550355035503550355035503550355035503550355035503550355035503550355035503550355035503550355035503550355035503550355))
 (n (l 0x355035503550355035503550355035503550355035503550355035503550355035503550355035503550355035503550355035503550355035503550355035503550355035503550355035503550355035503550355035503550355035503550355035503550355035503550355035503550355035503550355035503550355)
 (l 0x355035503550355035503550355035503550355035503550355035503550355035503550355035503550355035503550355035503550355035503550355035503550355035503550355035503550355035503550355035503550355035503550355035503550355035503550355035503550355035503550355035503550355)))
 (n (n (l 0x8a2089f089708910889037c0884087c087403550355086c0864085f035508570355035503550355035503550355035506e0035503550355035503550355035503550355035503550355035503550355035503550355035503550355035503550355035503550355035503550355035503550355035503550355035503550851)
 (l 0x3550355035503550355035503550355035503550355035503550355035503550355035503550355035503550355035503550355035503550355035503550355093003550920092809180910090c0355090608fe08f6035508ee08ea08e20355068108dc08d40529035508cf08c8035508c008b8035503550355035508b108aa))
 (n (l 0x355035503550355035503550355035503550355035503550355035503550355035503550355035503550355035503550355035503550355035503550355035503550355035503550355035503550355035503550355035503550355035503550355035503550355035503550355035503550355035503550355035503550355)
 (l 0x355035503550355035503550355035503550355035503550355035503550355035503550355035503550355035503550355035503550355035503550355035503550355035503550355035503550355035503550355035503550355035503550355035503550355035503550355035503550355035503550355035503550355))))
 (n (n (n (l 0x355035503550355035503550355035503550355035503550355035503550355035503550355035503550355035503550355035503550355035503550355035503550355035503550355035503550355035503550355035503550355035503550355035503550355035503550355035503550355035503550355035503550355)
 (l 0x355035503550355035503550355035503550355035503550355035503550355035503550355035503550355035503550355035503550355035503550355035503550355035503550355035503550355035503550355035503550355035503550355035503550355035503550355035503550355035503550355035503550355))
 (n (l 0x355035503550355035503550355035503550355035503550355035503550355035503550355035503550355035503550355035503550355035503550355035503550355035503550355035503550355035503550355035503550355035503550355035503550355035503550355035503550355035503550355035503550355)
 (l 0x355035503550355035503550355035503550355035503550355035503550355035503550355035503550355035503550355035503550355035503550355035503550355035503550355035503550355035503550355035503550355035503550355035503550355035503550355035503550355035503550355035503550355)))
 (n (n (l 0x355035503550355035503550355035503550355035503550355035503550355035503550355035503550355035503550355035503550355035503550355035503550355035503550355035503550355035503550355035503550355035503550355035503550355035503550355035503550355035503550355035503550355)
 (l 0x355035503550355035503550355035503550355035503550355035503550355035503550355035503550355035503550355035503550355035503550355035503550355035503550355035503550355035503550355035503550355035503550355035503550355035503550355035503550355035503550355035503550355))
 (n (l 0x355035503550355035503550355035503550355035503550355035503550355035503550355035503550355035503550355035503550355035503550355035503550355035503550355035503550355035503550355035503550355035503550355035503550355035503550355035503550355035503550355035503550355)
 (l 0x9700355035504ec096809610959033e033803550355035503550951094d09450355035503550355035503550355035503550355035503550355035503550355035505bc094003550355035503550938035503550355035503550355035503550355035503550355035503550355035503550355035503550355035503550355))))))
 (n (n (n (n (n (l 0x13dc13a8138c134c13180d5412e412a41264122411e811b411a41164112410e410a4106410240fe40fa40f640f240ee40eac0e6c0e2c0df00db00d700d580d5803550355035503550355035503550355035503550355035503550355035503550355035503550355035503550355035503550355035503550355035503550355)
 (l 0x188018801880188018801880188018801880188018801880188018801880188018801880188018801880188018801880188018801880188018801880188018801880c560c1f0be50ba50b66018801880b310188018801880188018801880188018801880af10188018801880188018801880ac8018801880a900a510a1109e1))
 (n (l 0x188018801880188018801880188018801880188018801880188018801880188018801880188018801880188018801880188018801880188018801880188018801880188018801880188018801880188018801880188018801880188018801880188018801880188018801880188018801880188018801880188018801880188)
 (l 0x188018801880188018801880188018801880188018801880188018801880188018801880188018801880188018801880188018801880188018801880188018801880188018801880188018801880188018801880188018801880188018801880188018801880188018801880188018801880188018801880188018801880188)))
 (n (n (l 0x188018801880188018801880188018801880188018801880188018801880188018801880188018801880188018801880188018801880188018801880188018801880188018801880188018801880188018801880188018801880188018801880188018801880188018801880188018801880188018801880188018801880188)
 (l 0x188018801880188018801880188018801880188018801880188018801880188018801880188018801880188018801880188018801880188018801880188018801880188018801880188018801880188018801880188018801880188018801880188018801880188018801880188018801880188018801880188018801880188))
 (n (l 0x188018801880188018801880188018801880188018801880188018801880188018801880188018801880188018801880188018801880188018801880188018801880188018801880188018801880188018801880188018801880188018801880188018801880188018801880188018801880188018801880188018801880188)
 (l 0x35503550355097f03550355035506b5035503550355035503550355035509770355035503550355035503550355035503550355035503550355035503550c9601880188018801880188018801880188018801880188018801880188018801880188018801880188018801880188018801880188018801880188018801880188))))
 (n (n (n (l 0x355035503550355035509d2035509cb09c709bf09bb03550355035503550355035503550355035503550355035509b30355035503550355035509ab09a7035503550355035503550355035503550355035503550355035503550355035503550355035503550355035503550355099f09990995035503550991098d09870355)
 (l 0xa510a490355035503550355035503550a450a3d035503550a3509e4035503550355035503550a2d0a2605be05bc0a1e033803550355035503550a16035503550a110a0905bc0a04035509fe09f70355053c09ef05bc05bd09eb09e4053f0355035503550355035509df035503550355035509d8035503550355035503550355))
 (n (l 0x355035503550ad303550acf0ac70355035503550ac10940035503550ab90355035503550355035503550355035503550355035503550ab203550aab0aa30a9f06b50a970355035503550a940a8c035503550a840a7c0355035503550a740355035503550355035503550a6f0a67035503550a610355035504b00a5903550355)
 (l 0x3550355035503550355035503550355035503550355035503550355035503550355035503550355035503550adf0355035503550355035503550355035503550355035503550355035503550355035503550355035503550355035503550355035503550355035503550355035503550ad90355035503550355035503550355)))
 (n (n (l 0x355035503550355035503550355035503550355035503550355035503550afa035503550af2035506770355035503550355035503550a840a7c03550355035503550355035503550355035503550355035503550355035503550355035503550355035503550355057c0aec03550ae603550355035503550355035503550355)
 (l 0x3550355035503550355035503550b1d03550355035503550b150b0f0b0703550355035503550355035503550355035503550355035503550355035503550355035503550355035503550355035503550355057c0aff035503550355035503550355035503550355035503550355035503550355035503550355035503550355))
 (n (l 0x35503550355035503550bbf0bb70bb0087c0ba9087c03550355035503550355035503550355035503550355035503550355035503550ba10b850b990b920b8a0b820b960b8f0b870b7f0b290b770b260b2b0b380b280b2d0b250b2a0b6f0b680b600b580b290b500b480b400b380b320b2d0b25035503550355035503550355)
 (l 0x3550355035509d003550355035503550355035503550355035503550355035503550bd303550355035503550355035503550bcf0bc70355035503550355035503550355035503550355035503550355035503550355035503550355035503550355035503550355035503550355035503550355035503550355035503550355)))))
 (n (n (n (n (l 0x3550355035503550355035503550355035503550355035503550355035503550355035503550355035503550bf20beb0be303550bdb0355035503550355035503550355035503550355035503550355035503550355035503550355035503550355035503550355035503550355035503550355035503550355035503550355)
 (l 0x35503550355035503550355035503550355035509f90355035503550355035503550355035503550355035503550355035503550355035503550c000bfa0bfa0b210355035503550355035503550355035503550355035503550355035503550355035503550355035503550355035503550355035503550355035503550355))
 (n (l 0x35503550355035503550355035503550355035503550355035503550355035503550355035503550355035503550355035503550c08087c087c087c087c087c087c087c0355035503550355087c087c087c053f0355035503550355035503550355035503550355035503550355035503550355035503550355035503550355)
 (l 0x4000000000000000000000000000000000000000000000000000000000000000000000000000000000000000000000000000000000000000000000000000000000000000000000000000000000000033503350355035503550355035503550355035503550355035503550355035503550355035503550355035503550355)))
 (n (n (l 0xf011f011f011f011f011f011f011000400000004000000000000101210121012101210121012101200ba1012101210121012101210121012007a005a000a101210121012101210121012101210120000000000000000000000000004000000000000000000000000000000000000000000000004000000000000000000000000)
 (l 0xf011f011f011f011f011f011f0110189f011f011f011f011f011f011f0110149f03100f9f011))
 (n (l 0x10121012005a005a10121012101210121012101201fa10121012101210121012000000000000000000000001000000040004000001c90004000000000000000000040000000400000000000100000004000000000000000000000000000000000000000000000000000000000000000000000000000000000000000000000000)
 (l 0xff910092ff910092ff910092ff910092ff910092ff910092ff910092ff9100923c91f011f011f011f011f011f011f0110000f011f011f011f011f011f011f011f011f011f011f011f011f011f011f011f011f01102d9f011f011f011f011f0110239101210121012101210121012101200001012101210121012101210121012))))
 (n (n (n (l 0xff910092ff910092ff910092ff910092ff91009203d9ff910092ff910092ff910092ff910092ff910092ff9100920001ff910092ff910092ff9100920389033affb1031aff910092ff910092ff91031aff910092ff910092ff910092ff910092ff910092ff910092ff910092ff910092ff910092ff910092ff910092ff910092)
 (l 0x6692ff9100926592651227920001ff91009266926692ff9100926712ff910092ff910092691261910459ff910092ff910092ff910092c392ff910092ff910092ff910092ff910092ff910092ff910092ff910092ff910092ff910092ff910092ff910092ff910092ff910092ff910092ff910092ff910092ff910092ff910092))
 (n (l 0x92ff910092ff910092ff910092063905fb05ca0599055b052a04f904bb048a00000000000000001c110001ff91009200000001ff9100926d92ff910092ff9100926c926c92ff9100926d12ff910092000100016d12ff9100926d12ff910092ff910092ff9100926b1241116a92699200015191ff9100926892699230916792)
 (l 0xff910092ff910092ff910092ff910092ff910092ff910092ff910092ff910092ff910092ff910092ff910092ff910092ff910092ff910092e412cf92ff9100920759071b06ea0669ff910092ff910092ff910092ff910092ff910092ff910092ff910092ff910092ff910092d891ff910092ff910092ff910092ff910092ff91)))
 (n (n (l 0x9a9100019b110001999199910001991197110829080907e9ff910092ff910092ff910092ffb10092ff910092239222929e92ff91009207c907c907aaae92ff910092078a000100010001000100010001ff910092ff910092ff910092ff910092ff910092ff910092ff910092ff910092ff9100920001bf12ff910092ff910092)
 (l 0x100010001000100010001000100000001929100010001000100010001dc9193919391dd91931109690001000100019311094900019311000100010929000100010001000100010001000195110001000195910909000196910001000108e908c908a9969197b1000108a90889000198910001086999910001000100010849))
 (n (l 0x400040004000400040004000400040004000400040004000400040004000400040004000400040004000400040004000400040005000500040014000400140004000400040005000500050005000500050025000500050001000100010001000100010001000100010001000100010001000100010001000109a909890001)
 (l 0x64006400640064006400640064004400540044004400440044004400440054004400540044005409cc0044004400440044004400540054000400040004000400040004000400040004000400040004000400040004000400040004000400040004000400040004000400040004000500050005000500050004000400040004)))))))

/-- Rows 64..127 of `caseIndex`. -/
def caseIndex_rows1 : Tree :=
 (n (n (n (n (n (n (l 0x4400640064006400440064006400640064004400440044000400640064004400440044006400640064004409dd00440044005400440044004400440044006400640064006400640064006400640064006400640074006400640064006400640064006400640064006400640064006400640064006400640064006400640064)
 (l 0x10120c1a0bca0b7a101210120b3a101210120afa10120a291f921f92000020120000129212921292000413120004000400000000000000003a120000411141114111000500000000ff91009200040004ff910092ff91009200440044004400440044004400440044004400440044004400440064006400640064006400640064))
 (n (l 0xff910092ff910092fc111269123900020002000211e911b90412e091e091e011f011f0111179f011f0111139f011f01110f910c910891049f011f011f0111009f0110fc90f790f29f011f0110ee9f011f0110ea9f0110dd9ed91ed91ed91ed11101210120d9a101210120d5a101210120d1a00000cda0c9a1012101210120c5a)
 (l 0x101210121012101210121012101213ba1012137a101210122812281228122812281228122812281228122812281228122812281228122812bf12bf12bf120001ff910092fc92ff9100920000134912fac631039112c91299ff910092ff910092ff910092ff910092ff910092ff910092ff910092ff910092ff910092ff910092)))
 (n (n (l 0xd811d811d811d831d811d831d811d811d811d811d811d811f011f011f011f011f0111659f011f011f011f011f011f011f011160915c9f011f0111589f011f011f011f011f011f011f011f011f0111549f0111509f011f0111012101210121012101214ca1012101210121012101210121012147a143a1012101213fa10121012)
 (l 0xff910092ff910092ff910092ff910092ff910092ff910092ff910092ff910092ff91009200040004004400440044004400440000ff910092ff910092ff910092ff910092ff910092ff910092ff910092ff910092ff910092ff910092ff910092ff910092ff910092ff910092ff91009216d9169aff910092d811d811d811d811))
 (n (l 0xff910092ff910092ff910092ff910092ff910092ff910092f891ff910092ff910092ff910092ff910092ff910092ff910092ff9100920792ff910092ff910092ff910092ff910092ff910092ff910092ff910092ff910092ff910092ff910092ff910092ff910092ff910092ff910092ff910092ff910092ff910092ff910092)
 (l 0x181218121812181218121812181218121812181218121812181218121812181218121812181218121812181218121812181218120000ff910092ff910092ff910092ff910092ff910092ff910092ff910092ff910092ff910092ff910092ff910092ff910092ff910092ff910092ff910092ff910092ff910092ff910092))))
 (n (n (n (l 0x6400640044004400440064004400440044004400640000000000000000000000000000000000011719e811e811e811e811e811e811e811e811e811e811e811e811e811e811e811e811e811e811e811e811e811e811e811e811e811e811e811e811e811e811e811e811e811e811000100040000000000000000000000040000)
 (l 0x640000006400440000006400640000006400000064006400640064006400640064006400640064006400640064006400440064006400440044006400440044006400640064006400640064004400440044004400440044))
 (n (l 0x6400640064004400440044004400440044004400440000000000000000000000000000000000000000000400040004000400040004000000000000000000000000000000000000000000000004000000000000000000000000000000000000000000000000000000000000000000000000000000000000000000000000)
 (l 0x44004400440044004400640064004400440064006400640064006400640064006400000000000000000000000000000000000000000004000000000000000000000000000000000000000000000000000000000000000000000000000000000000000000000000000000000000000000000000000000000000000000000004)))
 (n (n (l 0x44000400040044006400440044004400440000000400440044004400440044004400440000000000000000000000000000000000000000000000000000000000000000000000000000000000000000000000000000006400000000000000000000000000000000000000000000000000000000000000000064004400440064)
 (l 0x44004400640044000000000000000000000000000000000000000000000000000000000000000000000000000000000000000000000000000000000000000000000000006400000004000000000000000000000000000000000000000000000000000000000000000000000000000000000000006400440044006400000044))
 (n (l 0x440044006400440064004400640044006400440044004400640044006400640044006400640064004400440064)
 (l 0x4000400040004000400040004000400040004000400000000000000000000000000000000000000000000000000000000)))))
 (n (n (n (n (l 0x44004400440004004400440044004400440004004400440044004400000000000000000000000000000000000000000000000000000000000000000000000000000000000000000000000000640000000000040000000000000000000400040044006400440044004400440044004400440000000000000000000000000000)
 (l 0x44004400440044004400440044004400640000000000000000000000000000000000000000000000000000000000000000000000000000006400640064000000000000000000000000000000000000000000000000000000000000000000000000000000000000000000000000000000000000004400440044004400440004))
 (n (l 0x400040004004400440044004400440064006400440044006400440044004400640064006400640064006400440044004400640044004400640044004400640004004400440044004400440044)
 (l 0x40000000000000000000000000000000000000000000000000000000400040000000000000000000000000000000000000000000400040004004400440064004400000000000000640000000000000000000400040004000400040004000400040000000000000000006400000004000000000000000000000000)))
 (n (n (l 0x64000000000000000000000000000000000004000400040004000000000000000000640000000000000000000000000000000000000000000000000000000000000000000000000000000000000000000000000000000000000000)
 (l 0x40004000000000044000000000000000000000000000000000000000000000000000000000000000000000000000000000000000000000000000000000004000400000000))
 (n (l 0x4000400000004000400040004000400000000000000000000000000000000000000000000000400000000000000040004000000000000000000000000000000000000000000000000000000000000000000000000000400000000000000640004000400000000000400040000000000000000000400040000)
 (l 0x4000400040004000400040000000000000000000000000000000000000000000000000000000000000000000000000000000000000000000400040000000000000000000000000000000000000000000000000000000000000000000000000000000000640000))))
 (n (n (n (l 0x40004000000000000000000000000000000000000000000000004000400000000000000000000000000000064000000000000000000000000000000000004000400040004000000040000000000640000000000000000000000000000000000000000000000000000000000000000)
 (l 0x40000000000000000000000000000000000000000000000000000000000000000000000000000000000000000000000000000000000000000000000040000000000000000000000000000000000000000000000000000000000000000000000000000000000000000))
 (n (l 0x4000400000004000400040000000000000000000000040000000000000000000000000000000000000000000000000000000000000000000000000000000000000000000000000000000000000004000000000000000400000000000000000000000000000000000000000000000000000000000000000000000000640000)
 (l 0x40004000000000000000000000000000000000000000000000000000000000000000000000000006400040000000000000000000000040000000000000000000000000000000000000000000000640064000000000000000000000000000000640004)))
 (n (n (l 0x40000000400040004000000000000000000000000000000640000000000000000000000000000000000000000000000000000006400640000000000000000000000000000000000000000000000000000000000000000000000000000)
 (l 0x400040064006400640004000400040004000000000004000000000000000000000000000000000000000000000000000000000000000000000000000400040004006400640064006400040004000000000000000000000000000000640064006400040004000400040000000000040000))
 (n (l 0x64000000640000000000000000000000000000000000000000000000000000000000000000000000000000000000000000000000640064000000000000000000000000000000000000000000000000000000000000000000000000000000000000000000000000000000000004000400640064006400640000000400000000)
 (l 0x4000400040000000400040004000400040004000400040004000400040000000000000000000000440044000000640044004400040064000000040064006400640064000400040004000400040064000400640064000000000000000000000000000000000000000000000000000000000000000000000000000000640000))))))
 (n (n (n (n (n (l 0x6400000000000000000000000000000000000000040004000400040004000400040004000400040004000400040004000400040004000400040004000400040004000400040004000400040004)
 (l 0x40004000400000000000000000004000400000000000000000000000000000000000000000000000000000000000000000000000000000000000000000000000000000004000400000000006400640000006400040004000400040004000000040004000400040000))
 (n (l 0x175a175a175a175a175a175a175a175a175a175a175a175a0000000000040000000000000000000000000000000000000000000000000000000000000064000000000000000000000000000400040000000000040000000000000000000000000000000000000000000000000000000400040004000400000000000000000000)
 (l 0x1d491d191ce91cb91c891c591c291bf91bc91b991b691b391b091ad91aa91a791a491a1919e919b919891959192918f918c9189918691839180917d917a9177900000000175a00000000000000000000175a0000175a175a175a175a175a175a175a175a175a175a175a175a175a175a175a175a175a175a175a175a175a175a)))
 (n (n (l 0x201a201a201a201a201a201a201a201a201a201a201a201a201a201a201a201a004400440044000000000000000000000000000000000000000000000000000000000000000000000000000000000000000000000000000000000000000000001fe91fb91f89000400001f591f291ef91ec91e991e691e391e091dd91da91d79)
 (l 0x201a201a201a201a201a201a201a201a201a201a201a201a201a201a201a201a201a201a201a201a201a201a201a201a201a201a201a201a201a201a201a201a000000002149211920e920b92089205900000000203a203a203a203a203a203a))
 (n (l 0x4000000000000000400640004000400040004000400040004000400040000000000040000000000000000000000000000000000040004000400040004000400040000000400040000000000000000000000000000000000000000000000000000000000000000000000000000000000000000000000640004000400000000)
 (l 0x40000000000000000000000000000000000000000000000000000000000000000000000000000000000040004000400040000000000000000000000000000000000000000000000000000004400000000000000000000))))
 (n (n (n (l 0x400040004000000000000000000000000000000000000000000000000000000000000000000000000000000000000000000640000000000000000000000000000000000000000000000000000000000000000000000000000000000000000000000000000000000040004000000000000000000000000000000000000)
 (l 0x4000000000064004400000000000000000000000000000000000000000000000000000000000000000000000000000000000000000000006400440064000000000000000000000000000400000000000000000000000000000000000000040004000000000000))
 (n (l 0x400000000000000000000000000000064000000000044004400440044004400440044004400040004000000000000000000000000000400040004000400040004000400040000000000040000006400000004000400040004000400040004000000040000000000000000000000000000000000000000)
 (l 0x4000000040004000400040004000000640000000000000000000000000000000000000000000000000000000000000000000000000000000000000000000000000000000000000000000000000000006400640004006400440044006400640064006400640064004400440044004400440000000000000000)))
 (n (n (l 0x40004000400040000000000000000000000000000000000000000000000000000000000440044004400440044004400440064004400000000000000000000000000000000000000000000000000000000000000000000000000000000000000000000000000000000000000000000000000600000000400000000)
 (l 0x64000400000000000400040004000400040004000400040000000000000000000000000000000000000000000000000060006000040004000400000004000000000000000400040000006400000000000000000000000000000000000000000000000000000000000000000000000000000000000400040064006000040004))
 (n (l 0x236a236a236a236a236a236a236a236a236a236a236a236a236a236a236a236a00000000000000000000000000002339230922d922892239220921d921a9217900000000000400040004000400040004000000000000000000000000000000000000000000000000000000000000000000000000000000000000000000000000)
 (l 0x64000000000000000000640064006400640064006400640000004400640064006400640044004400640064006400640064006400000044004400440000000000000000000000000000000000000000000000000000000000000000236a236a236a00000000236a236a236a236a236a236a236a236a236a236a236a)))))
 (n (n (n (n (l 0x5000500050005000500050005000500050005000500050005000500050005000100010001000100010001000100010001000100010001000100010001000100010001000100010001000100010001000100010001000100010001000100010000000000000000000000000044004400000000000000440000000000000000)
 (l 0x50005000500050005000500050025000500050005002500050005000500050001000123a9000100010001238900050001000100010001000100010001000100010001000100010001000500050005000500050005000500050025000500050005000500050005000500050005000500050005000500050005000500050005))
 (n (l 0x440044004400440044004400440044004400440044004400440044004400440005000500050005000500010001000100010021000100010001000100010001000123c9000100010001000100010001000100010001000100010001000100010005000500050005000500050005000500050005000500050005000500050005)
 (l 0xff910092ffb10092ff910092ff910092ff910092ff910092ff910092ff910092004400440044004400440044004400440044004400440044004400440044006400640064006400440044006400440044004400440044004400440064004400440064004400640064004400000064006400640064004400440044004400440044)))
 (n (n (l 0xff910092ff9100920001271a0001000126e9266925e9256924e92469ff910092ff910092ff910092ff910092ff910092ff910092ff910092ff910092ff910092ff910092ff910092ff910092ff910092ff910092ff910092ff910092242923eaff910092ff910092ff910092ff910092ff910092ff910092ff910092ff910092)
 (l 0x41104110411041100000000fc12fc12fc12fc12fc12fc1200000000041104110411041104110411fc12fc12fc12fc12fc12fc12fc12fc1204110411041104110411041104110411ff910092ff910092ff910092ff910092ff910092ff910092ff910092ff910092ff910092ff910092ffb10092ff910092ff910092ff910092))
 (n (l 0x411041104110411fc120000fc120000fc120000fc1200000411294904112899041127e90411276900000000fc12fc12fc12fc12fc12fc1200000000041104110411041104110411fc12fc12fc12fc12fc12fc12fc12fc1204110411041104110411041104110411fc12fc12fc12fc12fc12fc12fc12fc120411041104110411)
 (l 0x394938d9386937f9378b371b36ab363b35cb355b34eb347b34093399332932b9324931d9316930f9308b301b2fab2f3b2ecb2e5b2deb2d7b2d092c992c292bb92b492ad92a6929f9000000003f113f113811381140114011321132112b112b112b112b1125112511fc12fc12fc12fc12fc12fc12fc12fc120411041104110411))))
 (n (n (n (l 0x48c94819041104110004000400040000ce12ce12fc12fc12476946e900000000461945690411041100040004000444fbd512d512d512d512444943c90000434942d9425900040004000442090004419bdb12db12fc12fc1240e9406900003fe93f793ef9041104113e8b3e1b3dab3d3b3ccb3c5b3beb3b7b3b093a993a2939b9)
 (l 0x4000000000004000000000000000000000000000400040000000000000000000000000000000000040004000400040004000000000000000000000000000000000000000000000000000400044debc112c112c012c0124d394cb900004c394bc94b4900000000000400040004fc92c812c812fc12fc124a994a1903914999))
 (n (l 0x50000000000000000000000000000000000000000000000000000002500000004000400040004000400040004000400040004000000040004000400040004000000000000000000000000000000000000000000000000000000000000000000000004000400040004000400000000)
 (l 0x44006400640004000400040044000400040004000400440044006400640064004400440044004400640064004400440000000000000000000000000000000000000000000000000000000000000000000000000000000500050005000500050005000500050005000500050005000500000000000000000000000000000000)))
 (n (n (l 0x4e5a00000002000000000000000000000000000200020002000200020000000000000002000000010002000200020001000100020002000200010000000000020000000000000000000200000000000000000000000000000000000000000000000000000000000000000000004400640064006400640064006400440064)
 (l 0x812081208120812081208120812081200000000000000000000000000000000000000000000000000000000000000000000f2110000000000000000002100210001000100020000000000000000000000020002000100010000000000010000000000000000000100020e120002000200010000000200024eda4e9a00000002))
 (n (l 0xd120d120d120d120d120d1200000000000000000000000000000000000000000000000000000000000000000000000000000000000000000000000000000000000000000000ff910092000000000000f811f811f811f811f811f811f811f811f811f811f811f811f811f811f811f81108120812081208120812081208120812)
 (l 0x1812181218121812181218121812181218121812181218120000000000000000000000000000000000000000000000000000000000000000000000000000000000000000f311f311f311f311f311f311f311f311f311f311f311f311f311f311f311f311f311f3110d120d120d120d120d120d120d120d120d120d120d120d12)))))))

/-- Rows 128..191 of `caseIndex`. -/
def caseIndex_rows2 : Tree :=
 (n (n (n (n (n (n (l 0x924f994f794f5a4f3a4f1aff9100920000e811e811e811e811e811e811e811e811e811e811e811e811e811e811e811e811e811e811e811e811e811e811e811e811e811e811e811e811e811e811e811000018121812181218121812181218121812181218121812181218121812181218121812181218121812181218121812)
 (l 0x50595059505950595059505950595059000000000000000000000000000000000000000000000000ff910092004400440044ff910092ff9100920000000000000000000000000001ff910092ff910092503a503a0005002500010001000100010001ff9100920001ff9100920001501a4ffa4fda4fbaff910092ff910092ff91))
 (n (l 0x40000000000000000000000000000000000000000000000000000000000000000000000000000000000005059000000000000000000005059000050595059505950595059505950595059505950595059505950595059505950595059505950595059505950595059505950595059)
 (l 0x40004000400040004000000600060006400640064006400000000000000000000000000000000000000000044004400440044004400440044004400440044004400440044004400440044004400440044004400440044004400440044004400440044004400440044004400640000000000000000000000000000)))
 (n (n (l 0x40004000400040064006400000000000000000000000000000000000000000000000000000000000000000000000000000000000000000000000000000004000000000000)
 (l 0xff910092ff910092000000000000000000000000000000000000000000000000000000000000000000000000000000040000000000000000000000000000000000000000000000000000000000040000000000000000000000000000000000000000000000000000000000000000000000000000000000000000000400040004))
 (n (l 0xff910092ff910092ff910092ff910092ff910092ff910092ff910092ff910092000400000044004400440044004400440044004400440044000000040004000400440000ff910092ff910092ff910092ff910092ff910092ff910092ff910092ff910092ff910092ff910092ff91009250b9507aff910092ff910092ff910092)
 (l 0x4000400040004000400040004000400040004000400040004000400040004000000000000000000000000000000000000000000000000000000000044004400000000000000000000000000000000000000000000000000000000000000000044004400050005ff910092ff910092ff910092ff910092ff910092ff910092))))
 (n (n (n (l 0x92ff910092000100010001000100010001000100010005ff910092ff910092ff910092ff910092ff910092ff910092ff910092ff910092ff91009200010001ff910092ff910092ff910092ff910092ff910092ff910092ff910092000400040004000400040004000400040004000400040004000400040004000400040004)
 (l 0xff91009200000000ff910092ff910092ff910092ff910092ff910092ff910092521a51fa51da51ba0001513a519a517a515a513aff910092ff910092ff910092ff910092ff910092ff91009200011811ff910092ff91009200000001511aff910092000400040004ff910092ff910092ff910092ff910092ff91009250faff91))
 (n (l 0x400000000000000000064000000000000000400000000000000000000000000000001000500050000ff9100920000000000000000000000000000000000000000000000000000000000000000000000000000000000000000ff910092ff910092525a523ae812)
 (l 0x40064000000000000000000000000000000000000000000000000000000000000000000000000000000640000000000000000000000040004000000000000000000000000000000000000)))
 (n (n (l 0x64006400640004000400040004000400000000000000000000000000040000000000000000000000000000000000000000000000000000004400440044004400440044004400440044004400440044004400440044004400440044)
 (l 0x4000000000000000000000000000000000000000000000000000000000060000000000004000400000000000400040004000400000000006400000000000000000000000000000000000000000000000000000000000000000000000000000060000000040004000400040004000400040004000400040004000000000000))
 (n (l 0x40000000000000000000000000000000000040000000000000000000000000000000000000000000000000004000400000000000400040000000000040004000400040004000400000000000000000000000000000000000000000000000000000000000000000000)
 (l 0x44000000440044000000000000000000000044004400000000006400440044000000440000000000000000000000000000000000000000000000000000000000000000000000000000000400000000000000000000000000000000000000000000000400000000000000000000000000000000)))))
 (n (n (n (n (l 0x640000000400040000000000000000000000040004000000000000000000000000000000000000000000000000000000000004000000000000000000000000000000000000000000000000000000000000000000000000000000000000)
 (l 0x55695539550954d954a954795449541953e953b953895359532952f952c95299000000000000000000040004000400010001000100010001000100010001000100050005000500050004000100010001000100010001000152790001000100010001000100010001000100010001000100010001000100010001000100010001))
 (n (l 0x5b695b395b095ad95aa95a795a495a1959e959b959895959592958f958c9589958695839580957d957a957795749571956e956b956895659562955f955c9559961696139610960d960a96079604960195fe95fb95f895f595f295ef95ec95e995e695e395e095dd95da95d795d495d195ce95cb95c895c595c295bf95bc95b99)
 (l 0x6400000000000000000000000067b9673966b9663965b90000000000000000000000000000000000000000000000006519647963c9631962996219619900000000000000000000000000000000000000000000000000000000000000000000000000640000000000000000000400000000000400000000000000000000)))
 (n (n (l 0x64006400640064006400440044004400440044004400440000000000000000000000000000000000000000000000000004000000000000000400040004000400040004000400040004000400040004000400040004000400040004000000000000000000000000000000000000000000000000000000000000000000000000)
 (l 0x101210121012101210121012101210121012101210121012101210121012101210121012101210121012101210121012101210120000000000000000000000000000000000000000000000040000000000040000000000000000000000000000000000000000000000000000000000000000000000000044004400640064))
 (n (l 0x400000000000000000000000000000000000000000000000000000000000000000000f011f011f011f011f011f011f011f011f011f011f011f011f011f011f011f011f011f011f011f011f011f011f011f011f011f01100040000000400000000)
 (l 0x64000000000000000000000000000000000000000000000000000000000000000000000000000000000000000000000000000000000000000000000004000400040000000000000000000000000000000000000000000000000000000000000000000000000000000000000004000000000000))))
 (n (n (n (l 0xec11ec11ec11ec11141214121412141214121412141214121412141214121412141214121412141214121412141214121412141214121412141214121412141214121412141214120000000000000000000000440044004400440044000000000000000000000000000000000000000000000000000000000000000000000000)
 (l 0xec11ec11ec11ec110000000000000000141214121412141214121412141214121412141214121412141214121412141214121412141214120000000000000000000000000000000000000000000000000000000000000000ec11ec11ec11ec11ec11ec11ec11ec11ec11ec11ec11ec11ec11ec11ec11ec11ec11ec11ec11ec11))
 (n (l 0x440004006400040000000000000000000000040004000000040004000400000000000000000000ec11ec11ec11ec11ec11ec11ec11ec11ec11ec11ec11ec11ec11ec11ec11ec11ec11ec11ec11ec11ec11ec11ec11ec11)
 (l 0x2012201220122012201220122012201220122012201220122012201220122012201220122012201200000000000000000000000000000000000000000000000000000000000000000000000000000000000000000000000000000064004400000000000000000000006400000000000000000064006400440000000000000000)))
 (n (n (l 0xe011e011e011e011e011e011e011e011e011e011e011e011e011e011e011e011e011e011e011e011e011e011e011e011e011e011e011e011e011e011e011e011e011e011e0110000000000000000000000000000000000000000000000000000201220122012201220122012201220122012201220122012201220122012)
 (l 0x4400440000000000000000000000000000000000000000000000000000000000000000000000000000000000000000000000000000000000000044004400440044000000000000000000000000000000000000000000000000))
 (n (l 0x6400040004000400040004000400040004000400040000000000000000000000000000000000000000000000000000000000000000000000000000000000000000000000000000000000000064006400640064004400640044004400440064006400000000)
 (l 0x4000000000000000000000000000000000000000000000000000000000000000000000000000000000000000000000000000000000000000000000000000000000044004400440000000000040000000000640064000000000004000400040004000000000000000000000000000000000000000000000000000000000000))))))
 (n (n (n (n (n (l 0x4000400040004000400040000000000000000000000000000000000000000000000000000000000000000000000000000000000000000006400000000000000000000000000000000000000000000000000000000000000000000000000000000000000000064006400040004000400040004000400000004000400040004)
 (l 0x4000400040004000400000000000000000004000000000000000000000000000400640060000400000000000400040004000000000000000000000000000000000000000000000000000000000000000000000000000000040000000000040004006400040000000000000000000000000000000000600000000400040004))
 (n (l 0x44004400440044004400440000000000000000000000000000000000000000000000000000000000000000000000000000000000600000000000000000000000000000000000000000000000000004000000000000000000000000000000000000000000000000000000000000000000000000000000000000006400640004)
 (l 0x4400000000000000000000000000000000000000000000000000000000000000000000000000000000000000000000006400000004000400640000000000000000000000000000000000000000000000000000004400440044004400440000000000000044)))
 (n (n (l 0x4000400040004000000000000000000000000000000000000000000000000000000000000000000000000000000000000000000000000000000000000000000000000006400640000000400040000000000000000000400000004000400040004000400040000000000000000000000000000)
 (l 0x400040004000400040004000400040000000000000000000000000000000000000000000000000000000000000000000000000000000000000004000400000000000000000000000000000000000000000000000000000000000000000000000000000000000000000000000000000000000000640064000000040004))
 (n (l 0x4000400000000000400040004000000000000000000000000000000000000000000000000000000000000000000000000000000000000000000000000000000000000000000000064006000040004000400040004000400000000000400000004000000000000000000000000000000000000000000000064000000040000)
 (l 0x1012101210121012101210121012101210121012101210121012101210121012000000000000000000000064006400000004000400040004000400040004000400040000000000000000000000000000000000000000000000000000000000000000000000000000000000000000000000640004000400040004000000040004))))
 (n (n (n (l 0xf011f011f011f011f011f011f011f011f011f011f011f011f011f011f011f011f011f011f011f011f011f011f011f011f011f011f011f011f011f011f011f0111012101210121012101210121012101210121012101210121012101210121012)
 (l 0x4000400040000000000000000000000040004000000000004000400040004000000000000000000000000000000000000000000000000000000000000000000000000000000000000000000000000000000000000000000640000000000000000006400600004000400000000000000000000000000000000000000000000))
 (n (l 0x4000400040000000000000000000000000000000000000064000000000000000000000000000000000004000400040004000000000004000400040004006400040000000000000000000000000000000000000000000000000000000000000000000000000000000000000000000000000004000400040004000400040004)
 (l 0x4000400040004000000040004000400040004000400040000000000000000000000000000000000000000000000000000000000000000000000000064000400000004000400040004000400040004000400040004000400040004000000000000000000000000000000000000000000040004000400000000000400040004)))
 (n (n (l 0x4006400040004000400000004000400000004000000000000000400040004000400040004000000000000000000000000000000000000000000000000000000000000000000000000000400040000000400040000000400040004000400040004000400000000000400040004000400040004000400040064000000040004)
 (l 0x400040000000000000000000000000000000000000000000000000000000000000000000000000000006400000004000000000000000400040000000000000000000000000000000000000000000000000000000000000000000000000000000000000000000000000004000000640064))
 (n (l 0x6400640064006400640000000000000000000000000000000000000000000000000000000000000000000000000000000400040004000400040004000400040004000000000000000000000000000000000000000000000000)
 (l 0x60006000000000000000000000000000000000000000000000000400040000000400040004000400040004000400040004000400040004000400040004000400040004000400000000000000000000000000000000000000000000000000000000000000000044004400440044004400440044)))))
 (n (n (n (n (l 0x6400640064006400640064006400640004000400040004000400040004000400600060006000600060006000000000000000640064006400600060000000000000000000000000006400040000000000000000000000000000000000000000000000000000000000000000000000000000000000000000000000000000)
 (l 0x4400440044000000000000000000000000000000000000000000000000000000000000000000000000000000000044004400440044000000000000000000000000000000000000000000000000000000000000000000000000000000000000000000640064004400440044004400440000))
 (n (l 0x1000100010001000100010001000100210021000100010001000100010001000100010002000200020002000200020002000200020002000200020002000200020002000200020002000200020002000200020002000200000000000000000000000000000000000000000000000000000000000000000000000000000000)
 (l 0x2000200020002000200020002000200020002000200020002000200020002000200020002000200020002000200020001000100010001000100010001000100210021000000010001000100010001000100010002000200020002000200020002000200020002000200020002000200010001000100010001000100010001)))
 (n (n (l 0x21002100010000000100000001000100010001000200020002000200020002000200020000000200020002000200000000000200020000000000020000000000020002000000020001000100010001000100010001000100010001000100010001000100010001002100210001000100010001000100010001000100020002)
 (l 0x1000100000002000200020002000200020002000000020002000200020002000200020002000000000002000200020002000000020002000100010001000100020002000200020002000200020002000200020002000200020002000200020001000100010001000100010001000100010001000100000001000100010001))
 (n (l 0x1000100010001002100210001000100010001000100010001000100000002000200020002000200020002000000000000000200000002000200020002000200000002000200020002000000020002000100010001000100010001000100010001000100010001000100010001000100210021000100010001000100010001)
 (l 0x1000100010001000200020002000200020002000200020002000200020002000200020002000200010001000100010001000100010001000100010001000100010001000100010002000200020002000200020002000200020002000200020002000200020002000200020002000200010001000100010001000100010001))))
 (n (n (n (l 0x2000200010001000100010001000100000001000100010001000100010001000100010001000100010001000100010001000100010001000100010001000100010001000000020002000200020002000200020002000200020002000200020002000200020002000200020002000200020002000200020000000000010001)
 (l 0x2000200020002000200020002000200020002000200020001000100010001000100010000000100010001000100010001000100010001000100010001000100010001000100010001000100010001000000020002000200020002000200020002000200020002000200020002000200020002000200020002000200020002))
 (n (l 0x4000000000000000000040004000400040004000400040004000400040004000400040004000400040004000400040004000400040004000000000000000000000000000000000000000000000000000000000000000000000000000000000001000200010001000100010001000100000001000100010002000200020002)
 (l 0x4000400040000000400040004000400040000000000000000000000000000000000000000000000000000000000000000000000000000000000000000000400000000000000000000000000000000000000000004000000000000000000000000000000000004000400040004000400040004000400040004000400040004)))
 (n (n (l 0x44000000440044004400440044004400440000000000440044004400440044004400440044004400440044004400440044004400440044000000440044004400440044004400440000000000000000000000000000000000000000000000000000000000000000000400040004000400040004000400040004000400040004)
 (l 0x64006400640064000000000000000000000000000000000000000000000000000000000000000000000000000400040004000400040004000400440044004400440044004400440000000000000000000000000000000000000000000000000000000000000000000000000000000000000044004400440044004400000044))
 (n (l 0xef11ef11ef11ef11ef11ef11ef11ef11ef11ef11ef11ef11ef11ef11ef11ef11ef11ef111112111211121112111211121112111211121112111211121112111211121112111211121112111211121112111211121112111211121112111211121112111211121112000000000000000000000000000000000000006400640064)
 (l 0x2000200020002000200020002000200000000000000000000000000020002000200020002000200020002000200020000000000000000000000000000000000000000000000000000000000000000000000000000000000040064004400440044004400440044ef11ef11ef11ef11ef11ef11ef11ef11ef11ef11ef11ef11)))))))

/-- Rows 192..255 of `caseIndex`. -/
def caseIndex_rows3 : Tree :=
 (n (n (n (n (n (n (l 0x400040004000400040004000400040004000400040004000400040004000400000000000000000000000000000000000000000000000000000000000000000000000000000000000000000002000200020002000200020002000200020002)
 (l 0x0))
 (n (l 0x0)
 (l 0x0)))
 (n (n (l 0x0)
 (l 0x0))
 (n (l 0x0)
 (l 0x0))))
 (n (n (n (l 0x0)
 (l 0x0))
 (n (l 0x0)
 (l 0x0)))
 (n (n (l 0x0)
 (l 0x0))
 (n (l 0x0)
 (l 0x0)))))
 (n (n (n (n (l 0x0)
 (l 0x0))
 (n (l 0x0)
 (l 0x0)))
 (n (n (l 0x0)
 (l 0x0))
 (n (l 0x0)
 (l 0x0))))
 (n (n (n (l 0x0)
 (l 0x0))
 (n (l 0x0)
 (l 0x0)))
 (n (n (l 0x0)
 (l 0x0))
 (n (l 0x0)
 (l 0x0))))))
 (n (n (n (n (n (l 0x0)
 (l 0x0))
 (n (l 0x0)
 (l 0x0)))
 (n (n (l 0x0)
 (l 0x0))
 (n (l 0x0)
 (l 0x0))))
 (n (n (n (l 0x0)
 (l 0x0))
 (n (l 0x0)
 (l 0x0)))
 (n (n (l 0x0)
 (l 0x0))
 (n (l 0x0)
 (l 0x0)))))
 (n (n (n (n (l 0x0)
 (l 0x0))
 (n (l 0x0)
 (l 0x0)))
 (n (n (l 0x0)
 (l 0x0))
 (n (l 0x0)
 (l 0x0))))
 (n (n (n (l 0x0)
 (l 0x0))
 (n (l 0x0)
 (l 0x0)))
 (n (n (l 0x0)
 (l 0x0))
 (n (l 0x0)
 (l 0x0)))))))

/-- UnicodeData/CasePropsData.py:9-783 `ucase_props_trieIndex`: 12356 entries of 16 bits. -/
def caseIndex : Table :=
 { size := 12356, bits := 16, depth := 8, rows := (n (n caseIndex_rows0 caseIndex_rows1) (n caseIndex_rows2 caseIndex_rows3)) }

/-- UnicodeData/CasePropsData.py:920 `ucase_props_trie_index_length`. -/
def caseIndexLength : Nat := 0xcd8

/-- UnicodeData/CasePropsData.py:921 `ucase_props_trie_index_2_null_offset`. -/
def caseIndex2NullOffset : Nat := 0x188

/-- UnicodeData/CasePropsData.py:922 `ucase_props_trie_data_null_offset`. -/
def caseDataNullOffset : Nat := 0xd54

/-- UnicodeData/CasePropsData.py:923 `ucase_props_trie_high_start`. -/
def caseHighStart : Nat := 0xe0800

/-- UnicodeData/CasePropsData.py:924 `ucase_props_trie_high_value_index`. -/
def caseHighValueIndex : Nat := 0x3040

/-- UnicodeData/CasePropsData.py:785-891 `ucase_props_exceptions`: 1667 entries of 16 bits. -/
def caseExceptions : Table :=
 { size := 1667, bits := 16, depth := 5, rows := (n (n (n (n (n (l 0x2bc222008800130006900020049084401310049000200c7ce5000014810212b000100c508441e9e0073005300530053007300732220000108c0212b000100e50841039c03bc0806017f000100530844212a0001004b084401310130000200205c50017f000100730841212a0001006b0841002048100131013000020020c850)
 (l 0x2a1f08102a3f08102a2808102a2b081001f201f1080c01f201f101f3080d01f201f30809030c004a030c004a030c006a2220088001cb01ca080c01cb01ca01cc080d01cb01cc080901c801c7080c01c801c701c9080d01c801c9080901c501c4080c01c501c401c6080d01c501c60809005300730806004e02bc004e02bc006e))
 (n (l 0x345000203b9084103f403d1000203b8084103f5000103b5084103d0000103b208411fd30301030803990301030803990301030803b93330000108c01fbe0001039903b938466800a5120810a5151810a52a0810a543081029e7081029fd0810a541081029f70810a5440810a5280810a54b0810a54f08102a1e08102a1c0810)
 (l 0x3f00001039a08441fbe034500020399084403f403d100020398084403f500010395084403d00001039208441fe30301030803a50301030803a50301030803c53330000108c02126000103c9084103d5000103c6084103c200010020485003f1000103c1084103d6000103c0084100b5000103bc084103f0000103ba08411fbe)))
 (n (n (l 0x8411c810001043408411c80000104320841039503b5080603d10398000203b8084103a103c10806039a03ba080603a003c0080603a603c6080603f40001039803b80846039203b208062126000103a9084403d5000103a6084403c2000103a3084403a303c3080603f1000103a1084403d6000103a0084400b50001039c0844)
 (l 0x10d21c92080c10d11c91080c10d01c90080c1c60081005820565002048801c870001046208441c870001046308411c860001042a08441c851c840002042208441c830001042108441c820001041e08441c810001041408441c800001041208441c860001044a08411c851c840002044208411c830001044108411c820001043e))
 (n (l 0x80c10e71ca7080c10e61ca6080c10e51ca5080c10e41ca4080c10e31ca3080c10e21ca2080c10e11ca1080c10e01ca0080c10df1c9f080c10de1c9e080c10dd1c9d080c10dc1c9c080c10db1c9b080c10da1c9a080c10d91c99080c10d81c98080c10d71c97080c10d61c96080c10d51c95080c10d41c94080c10d31c93080c)
 (l 0x1cbf080c10fe1cbe080c10fd1cbd080c10fa1cba080c10f91cb9080c10f81cb8080c10f71cb7080c10f61cb6080c10f51cb5080c10f41cb4080c10f31cb3080c10f21cb2080c10f11cb1080c10f01cb0080c10ef1caf080c10ee1cae080c10ed1cad080c10ec1cac080c10eb1cab080c10ea1caa080c10e91ca9080c10e81ca8))))
 (n (n (n (l 0x1e6108418a3808100ee608108a0408100bc00c10a64aa64b0806046204630806042a044a08061c8400010422044208461c850001042204420846042104410806041e043e080604140434080604120432080613f513f5080613f413f4080613f313f3080613f213f2080613f113f1080613f013f0080600080a1097d00a1010ff)
 (l 0x33300880031303a5031303a5031303c5222008800073007300201dbf0c901e601e61080602be004102be004102be006122200880030a0059030a0059030a007922200880030a0057030a0057030a00772220088003080054030800540308007422200880033100480331004803310068222008801e9b00011e6008441e9b0001))
 (n (l 0x3b91f0402200008089003991f0b03b91f0302200008089003991f0a03b91f0202200008089003991f0903b91f0102200008089003991f0803b91f000220000808900342031303a50342031303a50342031303c5333008800301031303a50301031303a50301031303c5333008800300031303a50300031303a50300031303c5)
 (l 0x1f0d03b91f05022000080c9003991f0c03b91f04022000080c9003991f0b03b91f03022000080c9003991f0a03b91f02022000080c9003991f0903b91f01022000080c9003991f0803b91f00022000080c9003991f0f03b91f0702200008089003991f0e03b91f0602200008089003991f0d03b91f0502200008089003991f0c)))
 (n (n (l 0x3991f2e03b91f2602200008089003991f2d03b91f2502200008089003991f2c03b91f2402200008089003991f2b03b91f2302200008089003991f2a03b91f2202200008089003991f2903b91f2102200008089003991f2803b91f2002200008089003991f0f03b91f07022000080c9003991f0e03b91f06022000080c900399)
 (l 0x89003991f2f03b91f27022000080c9003991f2e03b91f26022000080c9003991f2d03b91f25022000080c9003991f2c03b91f24022000080c9003991f2b03b91f23022000080c9003991f2a03b91f22022000080c9003991f2903b91f21022000080c9003991f2803b91f20022000080c9003991f2f03b91f27022000080890))
 (n (l 0x80c9003991f6803b91f60022000080c9003991f6f03b91f6702200008089003991f6e03b91f6602200008089003991f6d03b91f6502200008089003991f6c03b91f6402200008089003991f6b03b91f6302200008089003991f6a03b91f6202200008089003991f6903b91f6102200008089003991f6803b91f6002200008)
 (l 0x222008800399039103b903b102200009089003451fba03991fba03b91f702220088003991f6f03b91f67022000080c9003991f6e03b91f66022000080c9003991f6d03b91f65022000080c9003991f6c03b91f64022000080c9003991f6b03b91f63022000080c9003991f6a03b91f62022000080c9003991f6903b91f610220)))))
 (n (n (n (n (l 0x34203b722200880034503890399038903b903ae222008800399039703b903b702200009089003451fca03991fca03b91f742220088003450001039903b908460399039103b903b1022000090c9003450342039103990342039103b9034203b1333008800342039103420391034203b122200880034503860399038603b903ac)
 (l 0x30803990342030803990342030803b9333008800342039903420399034203b92220088003900301030803990301030803990301030803b93330000108c00300030803990300030803990300030803b9333008800399039703b903b7022000090c9003450342039703990342039703b9034203b7333008800342039703420397))
 (n (l 0x3c902200009089003451ffa03991ffa03b91f7c222008800342030803a50342030803a50342030803c533300880034203a5034203a5034203c522200880031303a1031303a1031303c12220088003b00301030803a50301030803a50301030803c53330000108c00300030803a50300030803a50300030803c5333008800342)
 (l 0xc1029fd0c102a1c0c102a280c102a2b0c1029e70c100ee60c1029f70c1000c5000120460c50004b000120bf0c5003a900011d5d0c50039903a903b903c9022000090c900345034203a90399034203a903b9034203c933300880034203a9034203a9034203c9222008800345038f0399038f03b903ce22200880039903a903b9)))
 (n (n (l 0x13a7080613a613a6080613a513a5080613a413a4080613a313a3080613a213a2080613a113a1080613a013a0080603a00c108a380c10a5430c1003a00810a5150c10a52a0c10a5120c10a5410c10a54b0c10a54f0c10a5440c10a5280c108a040c101c880001a64a08441c880001a64b08411c600c102a3f0c102a1e0c102a1f)
 (l 0x13bc13bc080613bb13bb080613ba13ba080613b913b9080613b813b8080613b713b7080613b613b6080613b513b5080613b413b4080613b313b3080613b213b2080613b113b1080613b013b0080613af13af080613ae13ae080613ad13ad080613ac13ac080613ab13ab080613aa13aa080613a913a9080613a813a8080613a7))
 (n (l 0x80613d113d1080613d013d0080613cf13cf080613ce13ce080613cd13cd080613cc13cc080613cb13cb080613ca13ca080613c913c9080613c813c8080613c713c7080613c613c6080613c513c5080613c413c4080613c313c3080613c213c2080613c113c1080613c013c0080613bf13bf080613be13be080613bd13bd0806)
 (l 0x13e7080613e613e6080613e513e5080613e413e4080613e313e3080613e213e2080613e113e1080613e013e0080613df13df080613de13de080613dd13dd080613dc13dc080613db13db080613da13da080613d913d9080613d813d8080613d713d7080613d613d6080613d513d5080613d413d4080613d313d3080613d213d2))))
 (n (n (n (l 0x6600663330088000690066004600490046004600690066006633300880006c0046004c0046006c006622200880006900460049004600690066222008800066004600460046006600662220088013ef13ef080613ee13ee080613ed13ed080613ec13ec080613eb13eb080613ea13ea080613e913e9080613e813e8080613e7)
 (l 0x544056d0574222008800576054e0546054e0576057e22200880056b0544053b0544056b0574222008800565054405350544056505742220088005760544054605440576057422200880fb050074005300540053007400732220000108c0fb060074005300540053007400732220000108c0006c00660046004c00460046006c))
 (n (l 0x56d0544053d)
 (l 0x0)))
 (n (n (l 0x0)
 (l 0x0))
 (n (l 0x0)
 (l 0x0)))))) }

/-- UnicodeData/CaseProps.py:101-118 `flagsOffset`: 256 entries of 8 bits. -/
def caseFlagsOffset : Table :=
 { size := 256, bits := 8, depth := 2, rows := (n (n (l 0x6050504050404030504040304030302050404030403030204030302030202010504040304030302040303020302020104030302030202010302020102010100)
 (l 0x7060605060505040605050405040403060505040504040305040403040303020605050405040403050404030403030205040403040303020403030203020201))
 (n (l 0x7060605060505040605050405040403060505040504040305040403040303020605050405040403050404030403030205040403040303020403030203020201)
 (l 0x8070706070606050706060506050504070606050605050406050504050404030706060506050504060505040504040306050504050404030504040304030302))) }

end Verif.Data
