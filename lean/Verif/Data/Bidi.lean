import Verif.Model.Table
/-!
# Tables of `UnicodeData/BidiPropsData.py`

Generated by tools/gen_data.py from the text of /repo. Rows hold 64 entries, least significant first.
-/
namespace Verif.Data

local notation "l" => Tree.leaf
local notation "n" => Tree.node

/-- Rows 0..63 of `bidiIndex`. -/
def bidiIndex_rows0 : Tree :=
 (n (n (n (n (n (n (l 0x4b304ab04a3049b0493048b0485047d0475046d0465045d0457044f0447043f0437042f0427041f03a4039c03a4039c03a4039c0419041103a4039c03a4039c04090401040603fe03f603ee03f203ea03e203da03d203ca03a4039c03a4039c03a4039c03a4039c03a4039c03a4039c03c403bc03b403ac0394038c0384037c)
 (l 0x39c055505d405cd05c5039c05bd05b6039c05b205aa039c039c05a6059e039c039c0598039c050805000511059004130500058c05840508057c0574056c056a0562055e039c05560500054e05460508053e053605090521052e0529050905210519051105090508050004f804f004ee04d704e604df043104cf04c704bb04bf))
 (n (l 0x604062a0622039c05150515061c061c039c039c039c0614039c039c039c039c039c039c039c039c039c039c039c039c039c039c039c039c039c039c039c060c039c039c039c0604039c05fc039c039c039c039c039c039c039c039c039c039c039c039c039c039c039c039c039c039c039c039c039c05f405ec05e405dc039c)
 (l 0x6d606d206ca039c039c039c039c039c039c039c039c039c039c039c039c039c06c203ea039c039c039c039c039c039c06ba06b2039c039c039c039c06ac039c06a7039c06a004130698055606900545039c056b0688039c06800678039c067106690661039c039c039c065f0657039c039c039c0638064f0648063206320640)))
 (n (n (l 0x7ae07a606690669079e06690669066906690669079806690669066906690669066906690669066906690669066906690666039c039c079006690788058206690669066906690782077b039c0775076d07300765075d075507500748074007380669066906690728039c07200718071005d70708070406fc06e606de06f406ee)
 (l 0x855084f066906690669066906690669066c066906690848039c0840083c083403ea039c039c039c082c039c039c039c0824039c039c039c039c039c039c039c081c066906690816081006690669066907d60808080407fc07f507ee07e607de07b607ce07c607be0669066906690669039c039c039c039c039c039c039c039c))
 (n (l 0x39c039c039c039c039c039c039c039c039c039c039c039c039c039c039c039c039c039c039c039c039c039c039c039c039c039c039c039c039c039c039c039c03c20661039c039c0891039c039c039c039c088d0885039c087d0875039c03d1082b0669039c039c039c039c039c039c03c3039c060c086d039c039c085d0865)
 (l 0x39c039c039c039c039c039c039c039c039c039c039c039c039c039c039c039c039c039c039c039c039c039c039c039c039c039c039c039c039c039c039c039c039c039c039c039c039c039c039c039c039c039c039c039c039c039c039c039c039c039c039c039c039c039c039c039c039c039c039c039c039c039c039c039c))))
 (n (n (n (l 0x39c039c039c039c039c039c039c039c039c039c039c039c039c039c039c039c039c039c039c039c039c039c039c039c039c039c039c039c039c039c039c039c039c039c039c039c039c039c039c039c039c039c039c039c039c039c039c039c039c039c039c039c039c039c039c039c039c039c039c039c039c039c039c039c)
 (l 0x39c039c039c039c039c039c039c039c039c039c039c039c039c039c039c039c06690669039c039c039c039c039c039c039c039c039c039c039c039c039c039c039c039c039c039c039c039c039c039c039c039c039c039c039c039c039c039c039c039c039c039c039c039c039c039c039c039c039c039c039c039c039c039c))
 (n (l 0x39c039c039c039c039c039c039c039c039c039c039c039c039c039c039c039c039c039c039c039c039c039c039c039c039c039c039c039c039c039c039c039c039c039c039c039c039c039c039c039c039c039c039c039c039c039c039c039c039c039c039c039c039c039c039c039c039c039c039c039c039c039c039c039c)
 (l 0x39c039c039c039c039c039c039c039c039c039c039c039c039c039c039c039c039c039c039c039c039c039c039c039c039c039c039c039c039c039c039c039c039c039c039c039c039c039c039c039c039c039c039c039c039c039c039c039c039c039c039c039c039c039c039c039c039c039c039c039c039c039c039c039c)))
 (n (n (l 0x39c039c039c039c039c039c039c039c039c039c039c039c039c039c039c039c039c039c039c039c039c039c039c039c039c039c039c039c039c039c039c039c039c039c039c039c039c039c039c039c039c039c039c039c039c039c039c039c039c039c039c039c039c039c039c039c039c039c039c039c039c039c039c039c)
 (l 0x39c039c039c039c039c039c039c039c039c039c039c039c039c039c039c039c039c039c039c039c039c039c039c039c039c039c039c039c039c039c039c039c039c039c039c039c039c039c039c039c039c039c039c039c039c039c039c039c039c039c039c039c039c039c039c039c039c039c039c039c039c039c039c039c))
 (n (l 0x39c039c039c039c039c039c039c039c039c039c039c039c039c039c039c039c039c039c039c039c039c039c039c039c039c039c039c039c039c039c039c039c039c039c039c039c039c039c039c039c039c039c039c039c039c039c039c039c039c039c039c039c039c039c039c039c039c039c039c039c039c039c039c039c)
 (l 0x39c039c039c039c039c039c039c039c039c039c039c039c039c039c039c039c039c039c039c039c039c039c039c039c039c039c039c039c039c039c039c039c039c039c039c039c039c039c039c039c039c039c039c039c039c039c039c039c039c039c039c039c039c039c039c039c039c039c039c039c039c039c039c039c)))))
 (n (n (n (n (l 0x39c039c039c039c039c039c039c039c039c039c039c039c039c039c039c039c039c039c039c039c039c039c039c039c039c039c039c039c039c039c039c039c039c039c039c039c039c039c039c039c039c039c039c039c039c039c039c039c039c039c039c039c039c039c039c039c039c039c039c039c039c039c039c039c)
 (l 0x39c039c039c039c039c039c039c039c039c039c039c039c039c039c039c039c039c039c039c039c039c039c039c039c039c039c039c039c039c039c039c039c039c039c039c039c039c039c039c039c039c039c039c039c039c039c039c039c039c039c039c039c039c039c039c039c039c039c039c039c039c039c039c039c))
 (n (l 0x39c039c039c039c039c039c039c039c039c039c039c039c039c039c039c039c039c039c039c039c039c039c039c039c039c039c039c039c039c039c039c039c039c039c039c039c039c039c039c039c039c039c039c039c039c039c039c039c039c039c039c039c039c039c039c039c039c039c039c039c039c039c039c039c)
 (l 0x39c039c039c039c039c039c039c039c039c039c039c039c039c039c039c039c039c039c039c039c039c039c039c039c039c039c039c039c039c039c039c039c039c039c039c039c039c039c039c039c039c039c039c039c039c039c039c039c039c039c039c039c039c039c039c039c039c039c039c039c039c039c039c039c)))
 (n (n (l 0x39c039c039c08a5039c039c0660066905b8039c039c056c089d039c039c0898039c039c039c039c039c039c039c039c039c058206690875039c039c039c039c039c039c039c039c039c039c039c039c039c039c039c039c039c039c039c039c039c039c039c039c039c039c039c039c039c039c039c039c039c039c039c039c)
 (l 0x39c039c039c039c039c039c039c039c039c039c039c039c039c039c039c039c039c039c039c039c039c039c039c039c039c039c039c039c039c039c039c039c0901039c039c039c08fa039c039c039c08f4050808ec039c050908e808e0039c0507039c08d804ee039c08d308cc039c08c4058e039c039c08bc063208b408ad))
 (n (l 0x39c039c039c039c039c039c039c039c039c039c039c039c039c039c039c039c039c039c039c039c039c039c039c039c039c039c039c039c039c039c039c039c039c039c039c039c039c039c039c039c039c039c039c039c039c039c039c039c039c039c039c039c039c039c039c039c039c039c039c039c039c039c039c039c)
 (l 0x39c039c039c039c039c039c039c039c039c039c039c039c039c039c039c039c039c039c039c039c039c039c039c039c039c039c039c039c039c039c039c039c039c039c039c039c039c039c039c039c039c039c039c039c039c039c039c039c039c039c039c039c039c039c039c039c039c039c039c039c039c039c039c039c))))
 (n (n (n (l 0x39c039c039c039c039c039c039c039c039c039c039c039c039c039c039c039c039c039c039c039c039c039c039c039c039c039c039c039c039c039c039c039c039c039c039c039c039c039c039c039c039c039c039c039c039c039c039c039c039c039c039c039c039c039c039c039c039c039c039c039c039c039c039c039c)
 (l 0x39c039c039c039c039c039c039c039c039c039c039c039c039c039c039c039c039c039c039c039c039c039c039c039c039c039c039c039c039c039c039c039c039c039c039c039c039c039c039c039c039c039c039c039c039c039c039c039c039c039c039c039c039c039c039c039c039c039c039c039c039c039c039c039c))
 (n (l 0x39c039c039c039c039c039c039c039c039c039c039c039c039c039c039c039c039c039c039c039c039c039c039c039c039c039c039c039c039c039c039c039c039c039c039c039c039c039c039c039c039c039c039c039c039c039c039c039c039c039c039c039c039c039c039c039c039c039c039c039c039c039c039c039c)
 (l 0x39c039c039c039c039c039c039c039c039c039c039c039c039c039c039c039c039c039c039c039c039c039c039c039c039c039c039c039c039c039c039c039c039c039c039c039c039c039c039c039c039c039c039c039c039c039c039c039c039c039c039c039c039c039c039c039c039c039c039c039c039c039c039c039c)))
 (n (n (l 0x39c039c039c039c039c039c039c039c039c039c039c039c039c039c039c039c039c039c039c039c039c039c039c039c039c039c039c039c039c039c039c039c039c039c039c039c039c039c039c039c039c039c039c039c039c039c039c039c039c039c039c039c039c039c039c039c039c039c039c039c039c039c039c039c)
 (l 0x39c039c039c039c039c039c039c039c039c039c039c039c039c039c039c039c039c039c039c039c039c039c039c039c039c039c039c039c039c039c039c039c039c039c039c039c039c039c039c039c039c039c039c039c039c039c039c039c039c039c039c039c039c039c039c039c039c039c039c039c039c039c039c039c))
 (n (l 0x39c039c039c039c039c039c039c039c039c039c039c039c039c039c039c039c039c039c039c039c039c039c039c039c039c039c039c039c039c039c039c039c039c039c039c039c039c039c039c039c039c039c039c039c039c039c039c039c039c039c039c039c039c039c039c039c039c039c039c039c039c039c039c039c)
 (l 0x969039c039c039c09610959038c09510949049b049b049b0945093d0939093109290925049b049b049b049b091d049b049b049b049b049b049b049b049b049b049b049b049b049b049b090d09090915039c039c039c039c039c039c039c039c039c039c039c039c039c039c039c039c039c039c039c039c039c039c039c039c))))))
 (n (n (n (n (n (l 0x12ac126c122c11f411b41174113c10fc10bc107c0e700e700e7010440e700e7010040ff80fb80fa80f680f280e700e700e700e700e700e700ef00eb00e700e70039c039c039c039c039c039c039c039c039c039c039c039c039c039c039c039c039c039c039c039c039c039c039c039c039c039c039c039c039c039c039c039c)
 (l 0xd5d01a001a001a001a001a001a001a001a001a001a001a001a001a001a001a001a001a001a001a001a001a001a001a001a001a001a001a001a001a001a001a00d1d0cdd0c9d0c5d0c1d0bdd01a001a00ba801a001a001a001a001a001a001a001a001a00b6801a001a001a001a001a001a00b3f01a001a00aff0ac00a800a40))
 (n (l 0xd5d01a001a001a001a001a001a001a001a001a001a001a001a001a001a001a001a001a001a001a001a001a001a001a001a001a001a001a001a001a001a001a00d5d01a001a001a001a001a001a001a001a001a001a001a001a001a001a001a001a001a001a001a001a001a001a001a001a001a001a001a001a001a001a001a0)
 (l 0xd5d01a001a001a001a001a001a001a001a001a001a001a001a001a001a001a001a001a001a001a001a001a001a001a001a001a001a001a001a001a001a001a00d5d01a001a001a001a001a001a001a001a001a001a001a001a001a001a001a001a001a001a001a001a001a001a001a001a001a001a001a001a001a001a001a0)))
 (n (n (l 0xd5d01a001a001a001a001a001a001a001a001a001a001a001a001a001a001a001a001a001a001a001a001a001a001a001a001a001a001a001a001a001a001a00d5d01a001a001a001a001a001a001a001a001a001a001a001a001a001a001a001a001a001a001a001a001a001a001a001a001a001a001a001a001a001a001a0)
 (l 0xd5d01a001a001a001a001a001a001a001a001a001a001a001a001a001a001a001a001a001a001a001a001a001a001a001a001a001a001a001a001a001a001a00d5d01a001a001a001a001a001a001a001a001a001a001a001a001a001a001a001a001a001a001a001a001a001a001a001a001a001a001a001a001a001a001a0))
 (n (l 0xd5d01a001a001a001a001a001a001a001a001a001a001a001a001a001a001a001a001a001a001a001a001a001a001a001a001a001a001a001a001a001a001a00d5d01a001a001a001a001a001a001a001a001a001a001a001a001a001a001a001a001a001a001a001a001a001a001a001a001a001a001a001a001a001a001a0)
 (l 0xd5d01a001a001a001a001a001a001a001a001a001a001a001a001a001a001a001a001a001a001a001a001a001a001a001a001a001a001a001a001a00dad0d9d0d5d01a001a001a001a001a001a001a001a001a001a001a001a001a001a001a001a001a001a001a001a001a001a001a001a001a001a001a001a001a001a001a0))))
 (n (n (n (l 0xd5d01a001a001a001a001a001a001a001a001a001a001a001a001a001a001a001a001a001a001a001a001a001a001a001a001a001a001a001a001a001a001a00d5d01a001a001a001a001a001a001a001a001a001a001a001a001a001a001a001a001a001a001a001a001a001a001a001a001a001a001a001a001a001a001a0)
 (l 0x39c039c039c039c039c039c039c039c039c039c039c039c039c039c039c039c039c039c039c039c039c039c039c039c039c039c039c039c039c039c039c039c039c039c039c039c0988039c039c039c0981039c039c039c039c039c039c039c0501039c060c097906690669039c0971039c039c039c039c039c039c039c039c))
 (n (l 0x43109ff09f7043109f309ed09e604310431043109e2043109da04310431043104310431043104310431043109ca09d2043104310431043104310431043104310431043109c209bc0431043109b4043109a409ac0431043104310431099c09980431043104310431043104310431099004310431043104310431043104310431)
 (l 0x39c039c039c039c039c039c0a8805fc039c039c0a80039c0a7a056b0a72039c039c0a6a0a62039c039c039c039c039c039c0a5e0a56039c039c0a4e0a07039c039c039c039c039c0a46056b059004130a3f082c039c039c039c039c0a37039c039c0a320a2a04130a25039c0a1f04ee039c039c0a1804130a150a0e0a070508)))
 (n (n (l 0x39c0aeb0af0039c039c039c039c039c039c0592039c039c039c039c039c039c039c039c039c039c0ae3039c0adf0ad7039c039c039c0ac90acf039c039c0ac1039c039c039c039c039c039c039c039c039c039c039c039c0aba039c0ab30aab0aa7056b0a9f039c039c039c0a9c0a94039c039c039c039c039c039c039c0a8d)
 (l 0xaff039c039c039c039c039c039c039c039c039c039c039c039c039c039c039c039c039c039c039c039c039c039c039c039c039c039c039c039c039c039c0af8039c039c039c039c039c039c039c039c039c039c039c039c039c039c039c039c039c039c039c039c039c039c039c039c039c039c039c039c039c039c039c039c))
 (n (l 0x39c039c039c039c039c039c039c039c039c039c039c039c039c039c039c039c039c039c039c039c039c039c039c039c0b13039c039c0b0b039c0a26039c039c039c039c039c039c039c039c039c039c039c039c039c039c039c039c039c039c039c039c039c039c039c039c039c039c039c039c039c039c039c039c0b05039c)
 (l 0x39c039c039c039c039c039c039c039c083f06690669039c039c039c039c039c0b3806690669039c039c0b300b2a0b22039c039c039c039c039c039c039c039c039c039c039c039c039c039c039c039c039c039c039c039c039c039c039c039c039c039c0b1b0522039c039c039c039c039c039c039c039c039c039c039c039c)))))
 (n (n (n (n (l 0x39c039c039c039c039c039c039c039c039c039c039c039c039c0b6e0b660b5f03ea0b5803ea039c039c039c039c039c039c039c039c039c039c039c039c039c039c039c039c0b500b4c039c0b44039c0b3d039c0b41039c0b3a039c039c039c039c039c039c039c039c039c039c039c039c039c039c039c039c039c039c039c)
 (l 0x39c039c039c039c039c039c039c039c039c039c039c0b83039c039c039c039c039c039c039c039c039c039c039c039c039c0b05039c039c039c039c039c039c039c0b7e0b76039c039c039c039c039c039c039c039c039c039c039c039c039c039c039c039c039c039c039c039c039c039c039c039c039c039c039c039c039c))
 (n (l 0x431043104310431043104310431043104310431043104310431043104310431043104310431043104310431043104310b9a0b930b9304310b8b043104310431043104310431039c039c039c039c039c039c039c039c039c039c039c039c039c039c039c039c039c039c039c039c039c039c039c039c039c039c039c039c039c)
 (l 0x6690669066906690669066906690669066906690669039c039c039c039c0779039c039c039c039c039c0bc6039c0bc1039c03be0bbb084f0bb30baf066c066906690baa0669043104310431043104310431043104310ba2049b049b049b049b049b049b049b0431043104310431043109f3049b049b04310431049b049b090d)))
 (n (n (l 0x39c039c039c0c15078806690c0d0669066906690669039c0c050c000bfa0bf2066c0669066906690798066906690beb066906690669039c039c0be30bde06690bd606690baa066e0bce06690669066c0669066906690979066b0669066906690669066906690669066906690669066906690669066906690669066906690669)
 (l 0x39c039c039c039c039c039c039c039c039c039c039c039c039c039c039c039c039c039c039c039c039c039c039c039c039c039c039c039c039c039c039c039c039c039c039c0c1c039c039c039c039c039c039c039c039c039c039c039c039c039c039c039c039c039c039c039c039c039c039c039c039c039c039c039c039c))
 (n (l 0xc2d0c2d0c2d0c2d0c2d0c2d0c2d0c2d0c2d0c2d0c2d0c2d0c2d0c2d0c2d0c2d0c2d0c2d0c2d0c3503ea03ea03ea03ea03ea03ea03ea0c2d0c2d0c2d0c2d0c240c240c240c2c0c1c039c039c039c039c039c039c039c039c039c039c039c039c039c039c039c039c039c039c039c039c039c039c039c039c039c039c039c039c)
 (l 0x12001200070009000800070008001200120012001200120012001200120012037b037b037b0c2d0c2d0c2d0c2d0c2d0c2d0c2d0c2d0c2d0c2d0c2d0c2d0c2d0c2d0c2d0c2d0c2d0c2d0c2d0c2d0c2d0c2d0c2d0c2d0c2d0c2d0c2d0c2d0c2d0c2d0c2d0c2d0c2d0c2d0c2d0c2d0c2d0c2d0c2d0c2d0c2d0c2d0c2d0c2d0c2d))))
 (n (n (n (l 0xa000ad00a000a500a000a0006000200020002000200020002000200020002000200060006000300060003000af20a310a000a000a000400040004000a000a00090008000700070007001200120012001200120012001200120012001200120012)
 (l 0x12000ad20a000a510a00000000000000000000000000000000000000000000000000000000000000000000000000000000000000000000000000000000000a000a000ad20a000a510a00000000000000000000000000000000000000000000))
 (n (l 0x12001200120012001200120012001200120012000700120012001200120012000000000000000000000000000000000000000000000000000000000000000000000000000000000000000000000000000000000000000000000000000000000000000000000000000000000000000000000000000000000000000000000000)
 (l 0xa000a000a000a900a00000002000a000a000a0000000a0002000200040004000a000a00b2000a900a0000000a000a000a000a0004000400040004000a00060012001200120012001200120012001200120012001200120012001200120012)))
 (n (n (l 0xa0000000000000000000000000000000000000000000000000000000000000000000000000000000000000000000000000000000000000000000000000000000a0000000000000000000000000000)
 (l 0xa000a000a000a000a000a00000000000a000a000a000a000a000a000a000a000a000a000a000a000a000a0000000000000000000000000000000a000a000000000000000000000000000000000000000000000000000000000000000000000000000000000000000000000000000000000000000000000000000000000000))
 (n (l 0xb100b100b100b100b100b100b100b100b100b100b100b100b100b100b100b100b100b100b100b100b100b100b100b1000a000a000a000a000a000a000a000a000a000a000a000a000a000a000a000a000a0000000a000a000a000a000a000a000a000a000a00000000000000000000000a000a000a000a000a000a000a000a)
 (l 0xa0000000a000a00000000000000000000000a00000000000000000000000000000000000a000a000000000000000000b100b100b100b100b100b100b100b100b100b100b100b100b100b100b100b100b100b100b100b100b100b100b100b100b100b100b100b100b100b100b100b100b100b100b100b100b100b100b100b1)))))))

/-- Rows 64..127 of `bidiIndex`. -/
def bidiIndex_rows1 : Tree :=
 (n (n (n (n (n (n (l 0xa0000000000000000000000000000000000000000000000000000000000000000000000000000000000000000000000000000000000000000000000000000000000000000000000000000000000000000000000000000000000000000000000000000000000000000000000000000000000000000)
 (l 0xb100b100b100b100b100b100b10000000000000000000000000000))
 (n (l 0x100b100b1000100b1000100b100b100b100b100b100b100b100b100b100b100b100b100b100b100b100b100b100b100b100b100b100b100b100b100b100b100b100b100b100b100b100b100b100b100b100b100b100b100b100b100b100b100b100b100b100010004000a000a00000000000a000000000000000000000000)
 (l 0x50005000500050001000100010001000100010001000100010001000100010001000100010001000100010001000100010001000100010001000100010001000100010001000100010001000100010001000100010001000100010001000100010001000100010001000100010001000100010001000100b1000100b100b1)))
 (n (n (l 0x4d004d004d002d004d004d004d004d004d004d004d004d004d004d004d004d004d008d008d008d008d004d004d004d004d004d008d004d008d004d008d008d008d008d000d004d000d000d000d08ad000d00b100b100b100b100b100b100b100b100b100b100b1000a000a000d0006000d00040004000d000a000a00050005)
 (l 0x8d008d008d008d004d004d004d004d004d004d004d004d008d008d008d000d008d008d008d00b1004d004d000d000500050004000500050005000500050005000500050005000500b100b100b100b100b100b100b100b100b100b100b100b100b100b100b100b100b100b100b100b100b1004d004d008d004d004d004d004d))
 (n (l 0x8d008d008d008d008d008d008d008d008d004d004d008d004d004d004d004d004d004d004d004d004d004d004d004d004d004d004d004d004d004d004d004d004d004d004d004d004d004d004d004d004d004d004d004d004d004d004d004d004d004d008d008d008d008d008d008d008d008d008d008d008d008d008d008d)
 (l 0xd000d000d000d000d000d000d000d000d000d000d000d004d000d000d004d004d004d0002000200020002000200020002000200020002008d008d00b100b100b100b1000a00b100b1000d000d00b100b100b100b100b100b1000a000500b100b100b100b100b100b100b1008d000d008d008d004d004d008d004d008d004d))))
 (n (n (n (l 0x4d004d004d004d004d004d008d000d000d00b100b100b100b100b100b100b100b100b100b100b100b100b100b100b100b100b100b100b1008d004d004d008d004d008d004d008d004d004d004d004d004d004d004d004d004d008d004d004d004d004d008d008d008d008d008d004d004d004d00b1008d00ad000d000d000d)
 (l 0xd000d000d000d000d000d000d000d000d000d000d000d000d000d000d000d000d000d000d000d004d004d004d004d004d004d008d008d004d004d004d008d008d004d008d004d004d004d004d008d008d004d004d004d004d004d004d004d004d004d004d004d004d004d004d004d008d008d008d004d004d004d004d004d))
 (n (l 0x410041004100410041004100410041004100410001000100010001000100010001000100010001000d000d000d000d000d000d000d000d000d000d000d000d000d000d000d00b100b100b100b100b100b100b100b100b100b100b1000d000d000d000d000d000d000d000d000d000d000d000d000d000d000d000d000d000d)
 (l 0x10001000100010001000100b100b100b100b100b1000100b100b100b1000100b100b100b100b10001000100b1000100010021000a000a000a000a0001000100b100b100b100b100b100b100b100b100b100410041004100410041004100410041004100410041004100410041004100410041004100410041004100410041)))
 (n (n (l 0x4d004d000d004d000100010001000100b100b100b1008100810081004100810041004100410041004100410041004100410041008100410081008100410041004100410041008100b100b100b100b100b1000100b100b100b100b1000100010001000100010001000100010001000100010001000100010001000100010001)
 (l 0x4d004d004d004d00b100b100b100b100b100b100b100b100b100b100b100b100b100b100b100b100b100b100b100b100b100b100b100b100b100b100b100b100b1000500b100b10001000100010001000100010001000100010001000100010001000100010001000d000d000d000d000d008d008d004d008d000d004d004d))
 (n (l 0xb100b100b100b100b100b100b100b100b100b100b100b100b100b100b100b1000d000d000d000d000d000d000d000d000d000d000d004d004d004d004d004d004d004d004d004d004d008d004d004d004d000d004d004d008d008d004d004d008d000d008d008d008d004d004d004d004d004d004d)
 (l 0xb100b100b100b100b100b100b100000000000000b1000000000000000000b100b100b100b100b100b100b100b1000000000000000000b1000000b100000000000000000000000000000000000000000000000000000000000000000000000000000000000000000000000000000000)))))
 (n (n (n (n (l 0xb10000000000000000000000000000000000000000000000000000000000000000000000000000000000000000000000000000000000000000000000b100b100000000)
 (l 0x40000000000000000000000000000000400040000000000000000000000000000000000000000000000000000000000b100b10000000000000000000000000000000000000000000000000000000000000000000000000000000000b10000000000000000000000000000000000b100b100b100b1000000000000000000b1))
 (n (l 0xb100000000000000b100b100b10000000000b100b1000000000000000000b100b100000000000000000000000000000000000000000000000000000000000000000000000000000000000000000000000000000000000000000000000000b100b10000000000b100000000)
 (l 0xb100b10000000000000000000000000000000000000000000000000000000000000000000000000000000000b1000000000000000000b100b1000000b100b100b100b100b10000000000000000000000000000000000000000000000b100000000000000b100b100000000000000000000000000000000)))
 (n (n (l 0xb100b100b100b1000000b10000000000b1000000000000000000000000000000000000000000000000000000000000000000000000000000000000000000000000000000000000000000b100b100b100b100b100b1000000000000000000000000000000000004000000000000000000000000000000000000)
 (l 0xb10000000000000000000000000000000000000000000000000000000000000000000000000000000000000000000000000000000000000000000000b10000000000000000000000000000000000000000000000b100b1000000000000000000000000000000b100000000000000000000))
 (n (l 0xb100000000000000b100000000000000000000000a0004000a000a000a000a000a000a00000000000000000000000000000000000000000000000000000000000000000000000000000000000000b100000000000000000000)
 (l 0xb100b10000000000000000000000000000000000000000000000b100b1000000000000000000000000000000b100b100b100b1000000b100b100b10000000000000000000000b100b100b100000000000000000000000000000000000000000000000000000000))))
 (n (n (n (l 0xb100b10000000000000000000000a000000000000000000000000000a00000000000b100000000000000000000000000000000000000000000000000000000000000000000000000000000000000000000000000000000000000000000000a000a000a000a000a000a000a00000000000000000000000000000000)
 (l 0xb1000000b100b100b1000000000000000000000000000000b1000000000000000000000000000000000000000000000000000000b100b1000000000000000000000000000000000000000000000000000000000000000000000000000000000000000000000000000000000000))
 (n (l 0xb100b100b100b10000000000b100000000000000000000000000000000000000000000000000000000000000000000000000b100b100b100b100b100b100b100b100000000000000000000000000000004000000000000000000b100b100b100b100b100b100b10000000000b1000000000000000000000000000000000000)
 (l 0xb100b10000000000000000000000000000000000000000000000000000000000000000000000000000000000000000000000000000000000b100b100b100b100b100b10000000000000000000000000000000000000000000000b100b100b100b100b1)))
 (n (n (l 0xb100b1000000b100b100b100b100b1000000b100b100b100b100b100b100b100b100b100b100b100b100b100b10000000000000000000000000000000000000000000000000000000000000000000000000000f20a310af20a310a00b1000000b1000000b1000000000000000000000000000000000000)
 (l 0xb100b100b1000000000000000000000000000000000000000000000000000000000000000000b100b100b100b100b100b100b100b100b100b100b100b100b100b100b100b100b100b100b100b100b100b100b100b100b100b100b100b100b100b100b100b1000000b100b100b100b100b100b100b100b100b100b100b10000))
 (n (l 0xb100b100b1000000000000000000b100b1000000000000000000000000000000000000000000000000000000000000000000000000000000000000000000000000000000b100b10000000000b100b1000000b100b100b100b100b100b1000000b1)
 (l 0xb100000000000000000000000000000000000000000000000000000000000000b100000000000000000000000000b100b10000000000b1000000000000000000000000000000000000000000000000000000b100b100b100b10000))))))
 (n (n (n (n (n (l 0xa000000000000000000000000000a000a000a000a000a000a000a000a000a000a000000000000000000000000000000000000000000000000000000000000000000b100b100b10000000000000000000000000000000000000000000000000000)
 (l 0xf20a310a0000000000000000000000000000000000000000000000000000000000000000000000000000000000000000000000000000000000090000000000000000000000000000000000000000000000000000000000000000))
 (n (l 0xb100b100b100b100b100b100b100b100b100b100b10000000000b10000000000000000000000000000000000b100b100b100b100b100b100b1000000b100b10000000000000000000000000000000000000000000000000000000000000000000000000000000000000000000000b100b100b100000000)
 (l 0x4000b10040004000400040004000400040004000400040004000400040004000400040004000400040004000400040004000400040004000400040004000400040004000400000000000b100000004000000000000)))
 (n (n (l 0x4000400040004000400040004000400040004000400040004000400040004000400040004000400040004000400040004000000000000000000000000000000000000000000000000000000000000000000000001200b100b100b1002a000a000a004a000a000a000a000a000a000a000a)
 (l 0xa000000000000000000b100b100b100000000000000000000000000b100000000000000000000000000000000000000b100b1000000000000000000b100b100b1004000400040004000400040004000400040004000400040004000400040004000400040004000400040004000400040004000b100b10000))
 (n (l 0xa000a000a000a000a000a000a000a000a000a000a000a000a000a000a000a000a000a000a000a000a000a000a000a000a000a000a000a000a000a00000000000000000000000000000000000000000000000000000000000000000000000000000000000000000000000000000000000000000000000000000000000a000a)
 (l 0xb100b100b100b100b100b100b1000000b1000000000000000000000000000000000000000000000000000000000000000000000000000000000000000000b10000000000b100b100000000000000000000000000000000000000000000000000000000000000000000000000000000000000000000000a000a000a000a))))
 (n (n (n (l 0xb100b100b100b100b100b100b100b100b100b100b100b100b100b100b100b1000000000000000000000000000000000000000000000000000000000000000000b10000000000b100b100b100b100b100b100b100b100b100b100000000000000000000000000b100b100b100b100b100b100b100b10000000000b1000000b1)
 (l 0xb100b100b100b100b100b100b100b100b10000000000000000000000000000000000000000000000000000000000b1000000b100b100b100b100b1000000b100000000000000000000000000000000000000000000000000000000000000000000000000000000))
 (n (l 0xb100b100b100b10000000000000000000000000000000000000000000000000000000000b100b100b1000000b100000000000000b100b1000000b10000000000000000000000000000000000000000000000000000000000000000000000000000000000b100b100b1000000b100b10000000000b100b100b100b100000000)
 (l 0xb100000000000000000000000000b1000000000000000000b100b100b100b100b100b100b1000000b100b100b100b100b100b100b100b100b100b100b100b100b1000000b100b100b1000000000000000000000000000000000000000000000000000000000000000000b100b10000000000b100b100b100b1)))
 (n (n (l 0xb100b100b100b100b1000000b100b100b100b100b100b100b100b100b100b100b100b100b100b100b100b100b100b100b100b100b100b100b100b100b100b100000000000000000000000000b100b1)
 (l 0xaf20a310a0006000a000a000a000a0000000a000a0000000000000000000000000000000000000000000000000000000a000a000a0000000000000000000000000000000000000000000000000000000a000a000a00000000000000000000000000000000000000000000000a000a000a0000000a00000000000000000000))
 (n (l 0x900090009000900090009000900090000f20a310a000a00030003000200020002000200020002000000000000000200b200b200b200b200b200b20816081308150814001200b200b200b200b200b20009000a000a000a000a000a000a000a000a000a000a000a000a000a000a000a000a000a000a000a000a000a000a000a)
 (l 0xf20a310a000a000300030002000200020002000200020002000200020002000a000a000a000a000af00a300a000a000a000a000a00040004000400040004000608af08ac08b008ae08ab00070009000a000a000a000a000a000a000a000a000a000a000a000a000a000a000a000a08a108a00432041200b2000900090009)))))
 (n (n (n (n (l 0xb100b100b100b100b100b100b100b100b100b100b100b100b100b100b100b1000400040004000400040004000400040004000400040004000400040004000400040004000400040004000400040004000400040004000400040004000400040000000000000000000000000000000000000000000000000000000000000000)
 (l 0xa000a0000000000000000000000000000000000000000000000040000000000000000000a0000000a0000000a0000000a000a000a000a000a000a00000000000000000000000a000a000a0000000a0000000000000000000000000000000000000000000a000a0000000a000a000a000a0000000a000a))
 (n (l 0xa000a000a000a000a000a000a000a000a000a000a000a000a000a000a000a0000000000000000000a000a000a000000000000000000000000000000000000000a000a000a000a000a000a000a000a000a000a000a000a000a000a000a000a00000000000a000a000a000a00000000000000000000000a000a000a000a100a)
 (l 0x900a000a100a100a100a100a000a000a000a100a900a000a00040003100a000a000a000ab00ab00ab00a700a700a700a000a000a000a100a100a100a100a000a100a900a900a900a900a900a100a100a900a900a100a900a900a900af00a300a000a000af00a300af00a300af00a300af00a300af00a300af00a300af00a300a)))
 (n (n (l 0x100a000a000a000a000a000a000a000a000a000af00a300af00a300a000a000a000a000a000a900a100a100a100a100a100a100a900a100a900a100a100a100a100a100af00a300a100a000a100a000a000a000a000a000a100a100a100a100a100a100a100a100a100a000a000a000a000a100a000a900a000a900a900a900a)
 (l 0x900a100a900a900a100a900a000a000af00a300a000a000a000a000a000a000a000a000a000a900a000a000a000a000a000af00a300af00a300a000a000a100af00a300af00a300af00a300af00a300af00a300af00a300af00a300af00a300af00a300a000a000af00a300af00a300af00a300af00a300a000a100a000a100a))
 (n (l 0xf20a310af20a310a000a000a000a000a000a000a000a000af00a300af00a300af00a300af00a300af00a300a000a000a000a000af00a300a000a000a900af00a300af00a300a000a000a000a000a000a000a000a000a000a100a100a000a000a000a000a000a900af00a300af00a300af00a300af00a300a100a100a100a100a)
 (l 0xa000a000a000a000a000a000a000a000a000a000af20a310a000a000a000a000a000a000a000a100a100a000a000a000a000a000a000a000a000a000a000a000a000a000a000a000a000a000a000a000a000a))))
 (n (n (n (l 0xa000a000a000a000a000a000a000a000a000a000a000a000a0000000a000a000a000a000a000a000a000a000a000a000a000a000a000a000a000a000a000a000a000a000a000a0000000000000000000000000000)
 (l 0xa000a000a000a000a000a000a000a000a000a000a000a000a000a000a000a000a000a000a0000000a000a000a000a000a000a000a000a000a000a000a000a000000000000000000020002000200020002000200020002000200020002000200020002000200020002000200020002000a000a000a000a000a000a000a000a))
 (n (l 0xf20a310af00a300af00a300a000a000a000af00a300a900a000a000a000a000a000af00a300a100a100a000a000a000a000a000ad00a100a500a000af00a300a000af20a310af00a300a000a000a100a000a000a000a000a000a000a000a000a000a000af20a310af20a310af20a310af20a310af20a310af20a310af20a310a)
 (l 0x310af20a310af20a310a000a000a000a000a000af20a310a000a000af00a300a100a100a900a100a000a000a000a000a000a000a000a000a000a000af00a300a000a000a100a100a100a000a100a000a000a000a000a000a000a000a000a000a000a000a000a000a000a000a000a000af20a310af20a310af20a310af20a310a)))
 (n (n (l 0xa000af00a300a100a100af00a300a000a000a000a000a000a000a000a900a000a000a000a000a000a000a000a000af00a300af00a300af00a300af00a300a100a100af00a300a900a100a000a900a100a100a100a100a900a000a000af20a310af20a310af20a310af20a310ab20af10a320a710af20a310af20a310af20a)
 (l 0xa000a000a000a000a000a000a000a000a000a100a000a100af00a300af00a300a000a000a000a100a000a000a000a000a900af00a300a000a000a000a000a000a100a900a900a900a100a000a000a000a000a000a100af20a310af20a310a000a000af00a300a000af00a300af00a300a100a000a000a000a000a100a000a))
 (n (l 0xa000a000a000a000a000a000a000a000a100af00a300a000a000a000a000a000a000af00a300a000a000a000a000a000af00a300af00a300a000a100a000a000a100a000a100a000a000a100a100a100a100a000a100a100a100a100a100a100a100a100a100a100a100a100a100a100a100a100a100a100a100a000a000a)
 (l 0x300af00a300af00a300af00a300af00a300af00a300af00a300af00a300af00a300af00a300a000a000a000a000a100a100a000a000a100a100a000a100a100a100a100a000a000a000a000af00a300a000a000a000a000a000a000a000a100a100a000a000a000a000a000a000a000a000a000a000a000a000a000a000a000a)))))))

/-- Rows 128..191 of `bidiIndex`. -/
def bidiIndex_rows2 : Tree :=
 (n (n (n (n (n (n (l 0xa900a000a100a000a000a000a000a000af00a300af00a300af00a300af00a300af00a300af00a300af00a300af00a300af00a300af00a300af00a300af00a300a000af00a300af00a300af00a300af00a300a000a000a100af00a300af00a300af00a300af00a300af00a300af00a300af00a300af00a300af00a300af00a)
 (l 0xa000a000a000a000a000a000a000a000a000a000a000a000a000a000a000a000a0000000a000a000a000a000a000a000a000a000a000a000a000a000a000a000a000a000a000a000a000a000a000a000a000a00000000000a000a000a000a000a000a000a000a000a000a000a000a000a000a000a000a000a000a000a000a))
 (n (l 0xa000a000a000a000a000a000a000000000000000000000000000000b100b100b10000000000000000000a000a000a000a000a000a00000000000000000000000a900a000a000a000a000a000a000a000a000a000a000a000a000a000a000a)
 (l 0xa000a000a000a000a000af20a310af20a310af20a310af20a310af00a300a000a000af00a300a000a000a000a000a000a000a000a000a000a000a000a000a000a000af00a300a000af00a300a000a000a000af00a300af00a300a000a000a00b1000000000000000000000000000000000000000000000000000000000000)))
 (n (n (l 0xa000a000a000a000a0000000a000a000a000a000a000a000a000a000a000a000a000a000a000a000a000a000a000a000a000a000a000a000a000a000a000a0000000000000000000000000000000000000000000000000000000a000a000a000a000a000a000a000a000a000a000a000a000a000a000a000a000a000a000a)
 (l 0xb100b1000000000000000000000000000000000000000a0000000000000000000a000a000a000a000a000a000a000a000a000a000a000a000000000000000000000000000000000000000000000000000000000000000000000000000a000a000a000a000a000a000a000a000a000a000a000a000a000a000a000a000a000a))
 (n (l 0xa000a000a000af20a310af20a310af20a310af20a310a000a000af20a310af20a310af20a310af20a310af20a310a000000000000000a000a000a000a0009000a000a000a00000000000000000000000a000a00000000000000000000000a0000000000b100b1)
 (l 0xa000a000a000a000a000a000a000a000a000a000a000a000a000a000a000a0000000000000000000000000000000000000000000000000000000000000000000000000000000a000a00b100b10000000000000000000000000000000000000000000000000000))))
 (n (n (n (l 0xa000a000a000a000a000a000a000a000a000a000a000a000a000a000a000000000000000000000000000000000000000000000000000000000000000000000000000a000a000a0000000000000000000000000000000000000000000000000000000000000000)
 (l 0xa000a000a00000000000000000000000000000000000000000000000000000000000a000a000a000a00000000000000000000000000000000000000000000000000000000000000000000000000000000000000000000000a000a000a000a))
 (n (l 0xb1000000000000000000b100000000000000b10000000000000000000000000000000000000000000000000000000000000000000000000000000000000000000000000000000a00000000000000000000000000000000000a000a00b100b100b100b100b100b100b100b100b100b1000a00b100b100b100b1000000000000)
 (l 0x40004000400040004000400040004000400040004000400040004000400040000000000000000000000000000400040000000000000000000000000000000000000000000000b1000a000a000a000a000000b100b1000000000000000000000000000000000000000000000000000000000000000000000000000000000000)))
 (n (n (l 0xb100b100b100b100b100b100b100b100000000000000000000000000b1000000000000000000000000000000000000000000000000000000b100b100b100b100b100b100b100b100b100b100b100b100b100b100b100b100b100b100000000000000000000000000000000000a000a000a000a0000006000400040)
 (l 0xb100b10000000000b100b100b100b10000000000b100000000000000000000000000000000000000000000000000000000000000000000000000000000000000b100b100b100b100b100b100b100b100b100b100b10000000000000000000000000000000000000000000000000000000000000000000000000000))
 (n (l 0xb10000000000000000000000000000000000b100000000000000000000000000000000000000000000000000b100b10000000000b100b10000000000b100b100b100b100b100b1000000000000000000000000000000000000)
 (l 0xa000a0000000000000000000000000000000000000000000000b10000000000000000000000000000000000b100b100000000000000000000000000000000000000000000000000b100b10000000000000000000000b100b10000000000b100b100b1000000b1)))))
 (n (n (n (n (l 0x100010001000100010001000100010001000100010001000100010001000100010001000300010001000100010001000100010001000100000000000000000000000000000000000000000000000000000000000000000000000000b1000000000000000000b10000000000b1000000000000000000000000000000000000)
 (l 0xd000d000d000d000d000d000d000d000d000d000d000d000100b1000100000000000000000000000000000000000000000000000000000000000000000000000000000000000000000000000000000000000000000000000d000d000d000d000d000d000d000d000d000d000d000d000d000d000d000d0001000100010001))
 (n (l 0xd000d000d000d000d000d000d000d000d000d000d000d0012001200120012001200120012001200120012001200120012001200120012000d000d000d000d000d000d000d000d000d000d000d000d000d000d000d000d000a000a000d000d000d000d000d000d000d000d000d000d000d000d000d000d000d000d000d000d)
 (l 0xa000a000a000a000a000a000a000a000a000a000a000a00b100b100b100b100b100b100b100b100b100b100b100b100b100b100b100b1000000000000000000000000000a000a000a000a000a000a000a000a000a000a00b100b100b100b100b100b100b100b100b100b100b100b100b100b100b100b1000d000d000a000d)))
 (n (n (l 0xd000d000d000d000d000d000d000d000d000d000d000d000d000d000d000d000d000d000d000d000d000d000d000d000d000d000d000d0000000000000000000a00040004000a0000000af00a300a00030003000a000a0004f20a310af20a310af20a310a000a000a000a0006000a00000006000a0006000a000a000a000a)
 (l 0x510a00000000000000000000000000000000000000000000000000000000000000000000000000000000000000000000000000000000000a000ad00a000a500a000a0006000200020002000200020002000200020002000200060006000300060003000af20a310a000a000a000400040004000a000a000000b2000d000d000d))
 (n (l 0xaa00aa00aa0012001200120012001200120012001200120000000a000a000a000a000a000a000a000000040004000a000a000a0004000400000000000000000000000000000000000000000000000000000000000000000000000000000000000000000000000000000000000a000af20a310a000af20a310a000ad20a000a)
 (l 0xa000a000a000a000a000a000a000a000a000a000a000a000000000000000a000a000a000a000a000a000a000a000a000a000a000a000a000000000000000000000000000000000000000000000000000000000000000000000000000000000000000000000000000000000000000000000000000a000000120012000a000a))))
 (n (n (n (l 0xb100b100b100b100b1000000000000000000000000000000000000000000000000000000000000000000000000000000000000000000020002000200020002000200020002000200020002000200020002000200020002000200020002000200020002000200020002000200b1000000000000000a)
 (l 0x100010001000100010001000100010001000100010001000100010001000100b100b100b100b10001000100010001000100b100b1000100b100b100b10001000a0001000100010001000100010001000100010001000100010001000100010001000100010001000100010001000100010001000100010001000100010001))
 (n (l 0x81008100610001000100810081000100810001008100410041004100410041000100010001000100010001000100010001000100010001000100010001000100810041004100410041000100010001000100b100b10081000100010081004100b1000100010001000100b100b100b100010001000100010001000100010001)
 (l 0x81008100410081004100410081004100410041008100810081004100810041000a000a000a000a000a000a000a00010001000100010001000100010001000100010001000100010001000100010001000100010001000100010001000100010041004100810041004100410041004100610041004100410041008100810081)))
 (n (n (l 0x50005000500050005000500050005000d000d000d000d000d000d000d000d00b100b100b100b1004d008d004d004d0001000100010001000100010001000100010001000100010001000100010001000100410041008100810081008100010001000100010001000100010001000100010001000100010001000100810041)
 (l 0x500050005000500050005000500050005000500050005000500050005000500050005000500050005000500050005004d004d004d004d004d004d004d004d004d004d004d004d004d004d004d004d004d004d004d004d004d004d004d004d004d004d004d004d004d004d004d006d000d000d000d000d000d000d00050005))
 (n (l 0xb100b100b100b100b100b1000d004d004d004d004d004d004d004d004d004d004d004d004d004d008d004d004d004d000100010001000100010001000100010001000100010001000100010001000100010001000100b100b10001000100010001000100010001000100010001000100010005000500050005000500050005)
 (l 0x8100810041000100410041008100410041008100810041000100810081008100410041000100410001000100010001000100010001000100010001000100010001000100010001000d000d000d000d000d000d000d000d000d000d000d000d000d000d000d000d000d000d000d008d004d004d004d00b100b100b100b100b1))))))
 (n (n (n (n (n (l 0xb100b100b100b100b100b100b100b100b100b100b10000000000000000000000000000000000000000000000000000000000000000000000000000000000000000000000000001000100010001000100010001000100010001000100010001000100010001000100010001000100610041008100010001000100010041)
 (l 0xb100b10000000000b100b100b100b10000000000000000000000000000000000000000000000000000000000000000000000000000000000000000000000000000000a000a000a000a000a000a000a000a000a000a000a000a000a000a000a000a0000000000000000000000000000000000000000))
 (n (l 0xb100b1000000000000000000000000000000000000000000000000000000000000000000000000000000000000000000b1000000000000000000000000000000000000000000000000000000000000000000000000000000000000000000b100b100b100b100b100b100b100b1000000b100b100b100b100b1000000000000)
 (l 0xb1000000000000000000b100000000000000000000000000b100b1000000b10000000000b100b100b1000000000000000000000000000000000000000000000000000000000000000000000000000000b10000000000b100b100b100b1000000000000000000000000000000000000000000b100b100b100b100b100b100b1)))
 (n (n (l 0xb1000000b100b100b1000000000000000000000000000000000000000000000000000000b100b100b100b100b100000000000000b100b100b100b100b100b100b10000000000000000000000000000000000000000000000000000000000000000000000000000000000000000000000b100b100b100b100b100b100b1)
 (l 0xb100b1000000b100b1000000000000000000b1000000b100b100b100b100b100b10000000000000000000000000000000000000000000000000000000000000000000000000000000000b10000000000000000000000000000000000000000000000000000000000000000000000000000000000000000))
 (n (l 0xb100b1000000b100b100000000000000000000000000b100b100b100b100000000000000000000000000000000000000000000000000000000000000000000000000000000000000000000000000000000)
 (l 0xa000a000a000a000a000a000a000a000a000a000a000a000a00b1000000b10000000000b100b100b100b100b100b100b100b100000000000000000000000000000000000000000000000000000000000000000000000000000000000000b100b10000000000000000))))
 (n (n (n (l 0xb100b100b100b100b1000000b100b100b100b1000000000000000000000000000000000000000000b1000000b100b100b100b100b100b10000000000b1000000b100000000000000000000000000000000000000000000)
 (l 0xb1000000000000000000b1000000b100b1000000000000000000000000000000000000000000000000000000000000000000000000000000000000000000000000000000000000000000b100b1000000b100b100b100b100b100b100b100b100b1000000000000))
 (n (l 0xb100000000000000000000000000000000000000000000000000000000000000000000000000000000000000000000000000b100b100a000a000b100b100b100b100b100b10000000000000000000000b100b10000000000b100b100b100b10000000000000000000000000000000000000000000000000000000000000000)
 (l 0xb100b100b100b100b100b100b100b100b100b100b100b100b1000000000000000000000000000000000000000000b100b100b10000000000b100b100b100b100b100b100000000000000000000000000000000000000b10000000000000000000000000000000000b100b100b100b10000000000b100b100b100b100b1)))
 (n (n (l 0xb100b1000000b100b1000000b100b100b100b100b100b100b10000000000b100b100b100b100b100b100b100b100a0000000b100b100b100b100b100b1000000b100b100b100b100b100b100b100000000000000000000000000000000000000000000000000000000000000000000000000b100b1)
 (l 0xb100b100b100b100b1000000b100b1000000b100000000000000b100b100b100b100b100b10000000000000000000000000000000000000000000000000000000000000000000000b100b100b100b100b100b100b100b100b100b100b100b100b100b100000000000000000000000000000000000000000000000000000000))
 (n (l 0xa000a000a000a000a000a000a000a000a000a000a000a000a000a000a000a000a00040000000000000000000000000000000000b1000000b100000000000000b100b100000000000000000000000000000000000000000000000000000000000000000000000000000000000000000000000000b1000000b100b1)
 (l 0xa000a000a000a000a000a000a000a000a00000000000000000000000000000000000000000000000000000000000000000000400040004000a000a000a000a000a000a000a000a000000000000000000000000000000000000000000000000000000000000000000000000000000000000)))))
 (n (n (n (n (l 0xb100b100b100b1000000000000000000000000000000000000000000000000000000000000000000b100b100b100b100b100b100b1000000000000000000000000000000000000000000000000000000000000000000000000000000b100b100b100b100b1000000000000000000000000000000000000000000000000)
 (l 0xb200b200b200b200000000000000000000000000000000000000000000000000000000000000000000000000000000000000000000000000000000000000b10000000a00000000000000000000000000000000000000000000000000000000))
 (n (l 0xb100b100b100b100b100b100b10000000000b100b100b100b100b100b100b100b100b200b200b200b200b200b200b200b200000000000000000000000000000000000000b100b100b1000000000000000000000000000000000000000000000000000000000000)
 (l 0xa00b100b100b1000a000a00000000000000000000000000000000000000000000000000000000000000000000000000b100b100b100b10000000000000000000000000000000000000000)))
 (n (n (l 0x200020000000000000000000000000000000000000000100a0000000000000000000000000000000000000000000000000000000000000000000000000000000000000000000000000000100a000000000000000000000000000000000000000000000000000000000000000000000000000000000000100a000000000000)
 (l 0xb100b100b100b100b1000000000000000000b100b100b100b100b100b100b100b100b100b100b100b100b100b100b100b100b100b100b100b100b100b100b100020002000200020002000200020002000200020002000200020002000200020002000200020002000200020002000200020002000200020002000200020002))
 (n (l 0xb100b100b100b100b100b100b1000000b100b100b100b100b1000000000000000000000000000000000000000000000000000000000000000000000000000000000000000000b1000000000000000000000000000000000000000000b10000000000000000000000000000000000b100b100b100b100b100b100b100b100b1)
 (l 0xb100b1000000b100b1000000b100b100b100b100b100b100b10000000000b100b100b100b100b100b100b100b100b100b100b100b100b100b100b100b100b1000000b100b100b100b100b100b100b1000000000000000000000000000000000000000000000000000000000000000000b100b100b100b100b100b100b100b1))))
 (n (n (n (l 0xb100b100b100b10001000100010001000100010001000100010001000100010001000100010001000400000000000000000000000000000000000000000000000000000000000000b100b100b100b100000000000000000000000000000000000000000000000000000000000000000000000000000000000000b100b100b1)
 (l 0x10001000100010001000100010001000100010001000100a100b100b100b100b100b100b100b10041004100410041004100410041004100410041004100410041004100410041004100410041004100410041004100410041004100410041004100410041004100010001000100010001000100010001000100b100b100b1))
 (n (l 0xa000a000a000a000a000a000a000a0000000000000000000a000a000a000a000a000a000a000a000a000a000a000a000d000d000d000d000d000d000d000d000d000d000d000d000d000d000a000a000d000d000d000d000d000d000d000d000d000d000d000d000d000d000d000d00010001000100010001000100010001)
 (l 0xa000a000a000a000a00020002000200020002000200020002000200020002000a000a000a000a000a000a000a000a000a000a000a000a000a000a000a0000000a000a000a000a000a000a000a000a000a000a000a000a000a000a000a00000000000a000a000a000a000a000a000a000a000a000a000a)))
 (n (n (l 0xa000a000a000a000a000a000a000a000000000000000000000000000000000000000000000000000000000000000000000000000a00000000000000000000000000000000000000000000000000000000000000000000000a000a000a000a000a000a00000000000000000000000000000000000000000000000000000000)
 (l 0xa000a000a000a000a000a000a000a000000000000000000000000000a000a000a000a000a000a000a000a000a000a00000000000000000000000000000000000a000a000a000a000a000a000a000a0000000000000000000000000000000a000a000a000a000a000a000a000a000a000a000a000a000a000a000a000a000a))
 (n (l 0xa000a000a000a000a000a000a000a000a000a000a000a000a000a000a000a000a000a000a000a00000000000000000000000000000000000000000000000000000000000a000a00000000000a000a000a000a000a000a000a000a000a000a000a000a000a000a000a000a000a000a00000000000000000000000000000000)
 (l 0xa000a000a000a000a000a000a000a000000000000000000000000000000000000000a000a000a000a000a000a000a00000000000000000000000a000a000a000000000000000a000a000a000a000a00000000000a000a000a000a000a000a000a000a000a000a000a000a000a000a000a000a0000000a000a000a000a000a)))))))

/-- Rows 192..255 of `bidiIndex`. -/
def bidiIndex_rows3 : Tree :=
 (n (n (n (n (n (n (l 0xa000a000a000a000a000a000a000a000a000a000a000a000000000000000000000000000000000000000a000a000a000a000a000a000a0000000000000000000000000000000000000000000000000000000a000a000a000a000a000a000a0000000000000000000000000000000a000a000a000a000a000a000a000a000a)
 (l 0x20002000200020002000200020002000200020000000000000000000000000000000000000000000000000000000000000000000a000a000a000a000a000a000a000a000a000a000a000a0000000a000a000a000a000a000a000a))
 (n (l 0x12001200120012001200120012001200120012001200120012001200b2001200b200b200b200b200b200b200b200b200b200b200b200b200b200b200b200b200b200b200b200b200b200b200b200b200b200b200b200b200b200b200b200b20012001200000000000000000000000000000000000000000000000000000000)
 (l 0x1200120012001200120012001200120012001200120012001200120012001200b100b100b100b100b100b100b100b100b100b100b100b100b100b100b100b100120012001200120012001200120012001200120012001200120012001200120012001200120012)))
 (n (n (l 0x0)
 (l 0x0))
 (n (l 0x0)
 (l 0x0))))
 (n (n (n (l 0x0)
 (l 0x0))
 (n (l 0x0)
 (l 0x0)))
 (n (n (l 0x0)
 (l 0x0))
 (n (l 0x0)
 (l 0x0)))))
 (n (n (n (n (l 0x0)
 (l 0x0))
 (n (l 0x0)
 (l 0x0)))
 (n (n (l 0x0)
 (l 0x0))
 (n (l 0x0)
 (l 0x0))))
 (n (n (n (l 0x0)
 (l 0x0))
 (n (l 0x0)
 (l 0x0)))
 (n (n (l 0x0)
 (l 0x0))
 (n (l 0x0)
 (l 0x0))))))
 (n (n (n (n (n (l 0x0)
 (l 0x0))
 (n (l 0x0)
 (l 0x0)))
 (n (n (l 0x0)
 (l 0x0))
 (n (l 0x0)
 (l 0x0))))
 (n (n (n (l 0x0)
 (l 0x0))
 (n (l 0x0)
 (l 0x0)))
 (n (n (l 0x0)
 (l 0x0))
 (n (l 0x0)
 (l 0x0)))))
 (n (n (n (n (l 0x0)
 (l 0x0))
 (n (l 0x0)
 (l 0x0)))
 (n (n (l 0x0)
 (l 0x0))
 (n (l 0x0)
 (l 0x0))))
 (n (n (n (l 0x0)
 (l 0x0))
 (n (l 0x0)
 (l 0x0)))
 (n (n (l 0x0)
 (l 0x0))
 (n (l 0x0)
 (l 0x0)))))))

/-- UnicodeData/BidiPropsData.py:9-794 `ubidi_props_trieIndex`: 12536 entries of 16 bits. -/
def bidiIndex : Table :=
 { size := 12536, bits := 16, depth := 8, rows := (n (n bidiIndex_rows0 bidiIndex_rows1) (n bidiIndex_rows2 bidiIndex_rows3)) }

/-- UnicodeData/BidiPropsData.py:890 `ubidi_props_trie_index_length`. -/
def bidiIndexLength : Nat := 0xdf0

/-- UnicodeData/BidiPropsData.py:891 `ubidi_props_trie_index_2_null_offset`. -/
def bidiIndex2NullOffset : Nat := 0x1a0

/-- UnicodeData/BidiPropsData.py:892 `ubidi_props_trie_data_null_offset`. -/
def bidiDataNullOffset : Nat := 0xe70

/-- UnicodeData/BidiPropsData.py:893 `ubidi_props_trie_high_start`. -/
def bidiHighStart : Nat := 0x110000

/-- UnicodeData/BidiPropsData.py:894 `ubidi_props_trie_high_value_index`. -/
def bidiHighValueIndex : Nat := 0x30f4

/-- UnicodeData/BidiPropsData.py:796-800 `ubidi_props_mirrors`: 40 entries of 32 bits. -/
def bidiMirrors : Table :=
 { size := 40, bits := 32, depth := 0, rows := (l 0x602bfe00e02aee01e02ae501a02ae401c02ae301802ade004029f5016029b8008029a300c029a000a0299b020027dc02c022fe02a022fd028022fc026022fb024022fa036022f7034022f6032022f4030022f302e022f2010022cd038022b804a022ab046022a9048022a8044022a6040022980120224c014022450220224304c0222403c0222203a0222103e0222004e0221f04202215000000bb002000ab) }

/-- UnicodeData/BidiPropsData.py:802-846 `ubidi_props_jgArray`: 680 entries of 8 bits. -/
def bidiJg1 : Table :=
 { size := 680, bits := 8, depth := 4, rows := (n (n (n (n (l 0x2d2d2c101a1816131d09003737370b0b01012828212123231f1f06060d0d0d04042a04032d032c0303002d)
 (l 0x2821212323231f1f1f1f1f1f1f1f1f0606060606060606060d0d0d0d0d0d0d04040404040404042d2c2c0300030303001d040000000000000000000000000000))
 (n (l 0x2a002e2e2d2d2c372f372c2c2c2c2c2c2c2c0e11112a0d15381a1a1a1a161616160b0b0b0b0b0b1313130b260b1d1d09090909090901)
 (l 0x1431302b2b1232270f07070c0c05000200000000000000000000000000000000150000012123000000000000000000001f060000000000000000000000000000)))
 (n (n (l 0x10101231f06060d0d040404040404043334350000000000000000000000000000000000000000000000000000000000070c052925071e22201c080a241b1917)
 (l 0x1323230d36362c2c2d373703030d1f230d0d231f1f161a1a1a18180b0b0b0909))
 (n (l 0x0)
 (l 0x0))))
 (n (n (n (l 0x0)
 (l 0x625c5b61595f5e63605a5d))
 (n (l 0x160d0d58010b0d0404045758562d1f0404040013011f550b210600392c1f2d2d18161d09280d0404)
 (l 0x0)))
 (n (n (l 0x0)
 (l 0x0))
 (n (l 0x0)
 (l 0x0))))) }

/-- UnicodeData/BidiPropsData.py:848-888 `ubidi_props_jgArray2`: 612 entries of 8 bits. -/
def bidiJg2 : Table :=
 { size := 612, bits := 8, depth := 4, rows := (n (n (n (n (l 0x42514e3f470000000000004d00004a4949494b48483b3b4c4645503e44434343534f41000054540052003d40403c3c3a)
 (l 0x0))
 (n (l 0x0)
 (l 0x0)))
 (n (n (l 0x0)
 (l 0x0))
 (n (l 0x0)
 (l 0x0))))
 (n (n (n (l 0x0)
 (l 0x640000640064006500006400000000000000000000000000000065000000000000650000))
 (n (l 0x0)
 (l 0x0)))
 (n (n (l 0x0)
 (l 0x0))
 (n (l 0x0)
 (l 0x0))))) }

/-- UnicodeData/BidiPropsData.py:7-7 `ubidi_props_indexes`: 16 entries of 32 bits. -/
def bidiIndexes : Table :=
 { size := 16, bits := 32, depth := 0, rows := (l 0x6502b60000000000000000000000000000000000000000000000000000000000010d2400010ac0000008c8000006200000002800006200000067ec00000010) }

end Verif.Data
