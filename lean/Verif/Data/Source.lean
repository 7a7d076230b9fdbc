import Verif.Model.Lines
/-!
# Texts of modules with code

Generated by tools/gen_source.py from the texts of /repo. Lines are written as numbers, see Model/Lines.lean.
-/
namespace Verif.Data.Source

/-- UnicodeData/Utilities.py:1-116 the lines of the file. -/
def Utilities : List Nat :=
 [0x2222225c,
  0x556974696c69747920726f7574696e65732c206574632e,
  0x0,
  0x43726561746564206f6e204d61792032382c2032303230,
  0x0,
  0x40617574686f722045726963204d61646572,
  0x222222,
  0x0,
  0x2320696d706f727420737472756374,
  0x696d706f727420747970696e67,
  0x0,
  0x636c617373205f6f626a656374286f626a656374293a,
  0x2020202022222255736566756c20666f722070617373696e67206f626a65637420696e7374616e63657320746f20737374727563742e756e7061636b2829222222,
  0x2020202070617373,
  0x0,
  0x646566206973556e69636f64654e6f6e63686172616374657228636f64653a20696e7429202d3e20626f6f6c3a,
  0x2020202072657475726e20636f6465203e3d2030786664643020616e64205c,
  0x202020202028636f6465203c3d20307866646566206f722028636f646520262030786666666529203d3d203078666666652920616e6420636f6465203c3d203078313066666666,
  0x0,
  0x5f66697273744c656164203d20307844383030,
  0x5f6669727374547261696c203d20307844433030,
  0x5f66697273744e6f6e424d50203d2030783130303030,
  0x5f6c6561645368696674203d203130,
  0x5f737572726f676174654d61736b203d2030784646464646383030,
  0x5f6c656164547261696c4d61736b203d2030784646464646433030,
  0x5f747261696c4d61736b203d2030784646464646464646202d205f6c656164547261696c4d61736b,
  0x5f737572726f676174654f6666736574203d20285f66697273744c656164203c3c205f6c656164536869667429202b205f6669727374547261696c202d205f66697273744e6f6e424d50,
  0x5f6c6561644f6666736574203d205f66697273744c656164202d20285f66697273744e6f6e424d50203e3e205f6c656164536869667429,
  0x0,
  0x646566206973537572726f6761746528636f64653a20696e7429202d3e20626f6f6c3a,
  0x2020202072657475726e2028636f64652026205f737572726f676174654d61736b29203d3d205f66697273744c656164,
  0x0,
  0x646566206973537572726f676174654c65616428636f64653a20696e7429202d3e20626f6f6c3a,
  0x2020202072657475726e2028636f6465202620307834303029203d3d2030,
  0x0,
  0x646566206973537572726f67617465547261696c28636f64653a20696e7429202d3e20626f6f6c3a,
  0x2020202072657475726e2028636f646520262030783430302920213d2030,
  0x0,
  0x6465662069734c65616428636f64653a20696e7429202d3e20626f6f6c3a,
  0x2020202072657475726e2028636f64652026205f6c656164547261696c4d61736b29203d3d205f66697273744c656164,
  0x0,
  0x646566206973547261696c28636f64653a20696e7429202d3e20626f6f6c3a,
  0x2020202072657475726e2028636f64652026205f6c656164547261696c4d61736b29203d3d205f6669727374547261696c,
  0x0,
  0x646566206368617246726f6d537572726f6761746573286c6561643a20696e742c20747261696c3a20696e7429202d3e20696e743a,
  0x2020202072657475726e20286c656164203c3c205f6c656164536869667429202b20747261696c202d205f737572726f676174654f6666736574,
  0x0,
  0x64656620737572726f676174657346726f6d436861722863683a20696e7429202d3e207475706c655b696e742c20696e745d3a,
  0x202020206c656164203d20286368203e3e205f6c656164536869667429202b205f6c6561644f6666736574,
  0x20202020747261696c203d202863682026205f747261696c4d61736b29202b205f6669727374547261696c,
  0x2020202072657475726e206c6561642c20747261696c,
  0x0,
  0x6465662061726974686d6574696353686966742876616c75653a20696e742c2062697473496e576f72643a20696e742c2062697473496e4669656c643a20696e7429202d3e20696e743a,
  0x202020202222225c,
  0x2020202041726974686d65746963207269676874207368696674732074686520746f70206269747320696e206120776f72642e,
  0x0,
  0x202020203a706172616d2076616c75653a207468652076616c756520746f2062652073686966746564,
  0x202020203a706172616d2062697473496e576f72643a20746865206e756d626572206f66206269747320696e206120776f7264,
  0x202020203a706172616d2062697473496e4669656c643a20746865206e756d626572206f6620746f702062697473,
  0x202020203a72657475726e733a20746865207369676e65642076616c7565206f662074686520746f702062697473,
  0x20202020222222,
  0x202020207369676e426974203d2031203c3c202862697473496e576f7264202d203129,
  0x202020207368696674203d2062697473496e576f7264202d2062697473496e4669656c64,
  0x20202020726573756c74203d2076616c7565203e3e207368696674,
  0x0,
  0x2020202072657475726e20726573756c74202d202831203c3c2062697473496e4669656c6429206966202876616c75652026207369676e4269742920213d203020656c736520726573756c74,
  0x0,
  0x64656620686967684269742876616c75653a20696e7429202d3e20747970696e672e4f7074696f6e616c5b696e745d3a,
  0x202020202222225c,
  0x2020202052657475726e2074686520626974206e756d626572206f66207468652068696768657374206269742073657420696e20612076616c75652e,
  0x0,
  0x202020203a706172616d2076616c75653a207468652076616c75652e2043616e20626520757020746f2036342062697473206c6f6e67,
  0x202020203a72657475726e733a2074686520626974206e756d6265722c20636f756e74696e672066726f6d20746865206c6f77206f7264657220626974,
  0x20202020222222,
  0x20202020626974203d2030,
  0x0,
  0x2020202069662076616c7565203d3d20303a2072657475726e204e6f6e652020232072657475726e204e6f6e65206966206e6f20626974732061726520736574,
  0x0,
  0x20202020232062696e61727920736561726368207468726f7567682074686520626974732c206c6f6f6b696e6720666f72207468652068696768657374206f6e65,
  0x2020202069662076616c7565203e3d2031203c3c2033323a,
  0x202020202020202076616c7565203e3e3d203332,
  0x2020202020202020626974202b3d203332,
  0x0,
  0x2020202069662076616c7565203e3d2031203c3c2031363a,
  0x202020202020202076616c7565203e3e3d203136,
  0x2020202020202020626974202b3d203136,
  0x0,
  0x2020202069662076616c7565203e3d2031203c3c20383a,
  0x202020202020202076616c7565203e3e3d2038,
  0x2020202020202020626974202b3d2038,
  0x0,
  0x2020202069662076616c7565203e3d2031203c3c20343a,
  0x202020202020202076616c7565203e3e3d2034,
  0x2020202020202020626974202b3d2034,
  0x0,
  0x2020202069662076616c7565203e3d2031203c3c20323a,
  0x202020202020202076616c7565203e3e3d2032,
  0x2020202020202020626974202b3d2032,
  0x0,
  0x2020202069662076616c7565203e3d2031203c3c20313a,
  0x202020202020202076616c7565203e3e3d2031,
  0x2020202020202020626974202b3d2031,
  0x0,
  0x2020202072657475726e20626974,
  0x0,
  0x2320546865726520646f65736e2774207365656d20746f20626520616e792075736520666f7220746869732e2e2e,
  0x232064656620756e7061636b417272617928646174612c20646174614f66667365742c2064617461466f726d6174293a,
  0x2320202020206974656d4c656e677468203d207374727563742e63616c6373697a652864617461466f726d617429,
  0x23202020202061727261794f6666736574203d20646174614f6666736574202b206974656d4c656e677468,
  0x2320202020206974656d436f756e742c203d207374727563742e756e7061636b2864617461466f726d61742c20646174615b646174614f66667365743a61727261794f66667365745d29,
  0x23202020202061727261794c696d6974203d2061727261794f6666736574202b20286974656d436f756e74202a206974656d4c656e67746829,
  0x23202020202072657475726e207374727563742e756e7061636b2866227b6974656d436f756e747d7b64617461466f726d61747d222c20646174615b61727261794f66667365743a61727261794c696d69745d29,
  0x0,
  0x646566206c6973744f66436f64657328636f6465733a206c6973745b696e745d29202d3e207374723a,
  0x20202020636f64654c697374203d205b66227b636f64653a3034587d2220666f7220636f646520696e20636f6465735d,
  0x2020202072657475726e20222c20222e6a6f696e28636f64654c69737429,
  0x0]

/-- UnicodeData/Characters.py:1-39 the lines of the file. -/
def Characters : List Nat :=
 [0x2222225c,
  0x436f6e7374616e747320666f7220736f6d652075736566756c20636f646520706f696e74732e2054616b656e2066726f6d207570726f70732e6820696e20494355,
  0x0,
  0x43726561746564206f6e204d617920352c2032303230,
  0x0,
  0x40617574686f722045726963204d61646572,
  0x222222,
  0x0,
  0x43485f544142203d20307830303039,
  0x43485f4c46203d20307830303061,
  0x43485f4646203d20307830303063,
  0x43485f4352203d20307830303064,
  0x43485f5350414345203d20307830303230,
  0x43485f555f41203d20307830303431,
  0x43485f555f46203d20307830303436,
  0x43485f555f5a203d20307830303561,
  0x43485f555f61203d20307830303631,
  0x43485f555f66203d20307830303636,
  0x43485f555f7a203d20307830303761,
  0x43485f44454c203d20307830303766,
  0x43485f4e4c203d20307830303835,
  0x43485f4e425350203d20307830306130,
  0x43485f43474a203d20307830333466,
  0x43485f4649475552455350203d20307832303037,
  0x43485f484149525350203d20307832303061,
  0x43485f5a574e4a203d20307832303063,
  0x43485f5a574a203d20307832303064,
  0x43485f524c4d203d20307832303066,
  0x43485f4e4e425350203d20307832303266,
  0x43485f574a203d20307832303630,
  0x43485f494e4853574150203d20307832303661,
  0x43485f4e4f4d444947203d20307832303666,
  0x43485f555f46575f41203d20307866663231,
  0x43485f555f46575f46203d20307866663236,
  0x43485f555f46575f5a203d20307866663361,
  0x43485f555f46575f61203d20307866663431,
  0x43485f555f46575f66203d20307866663436,
  0x43485f555f46575f7a203d20307866663561,
  0x5a574e42535020203d307866656666,
  0x0]

/-- UnicodeData/GeneralCategories.py:1-206 the lines of the file. -/
def GeneralCategories : List Nat :=
 [0x2222225c,
  0x4261736564206f6e20554368617243617465676f72792066726f6d2075636861722e6820696e20494355,
  0x0,
  0x43726561746564206f6e204d617920332c2032303230,
  0x0,
  0x40617574686f722045726963204d61646572,
  0x222222,
  0x0,
  0x23204e6f6e2d63617465676f727920666f7220756e61737369676e656420616e64206e6f6e2d63686172616374657220636f646520706f696e74732e2040737461626c652049435520322e30,
  0x47435f554e41535349474e4544203d2030,
  0x2320436e20224f746865722c204e6f742041737369676e656420286e6f206368617261637465727320696e205b556e69636f6465446174612e7478745d206861766520746869732070726f70657274792922202873616d652061732047435f554e41535349474e454421292040737461626c652049435520322e30,
  0x47435f47454e4552414c5f4f544845525f5459504553203d2030,
  0x23204c752040737461626c652049435520322e30,
  0x47435f5550504552434153455f4c4554544552203d2031,
  0x23204c6c2040737461626c652049435520322e30,
  0x47435f4c4f574552434153455f4c4554544552203d2032,
  0x23204c742040737461626c652049435520322e30,
  0x47435f5449544c45434153455f4c4554544552203d2033,
  0x23204c6d2040737461626c652049435520322e30,
  0x47435f4d4f4449464945525f4c4554544552203d2034,
  0x23204c6f2040737461626c652049435520322e30,
  0x47435f4f544845525f4c4554544552203d2035,
  0x23204d6e2040737461626c652049435520322e30,
  0x47435f4e4f4e5f53504143494e475f4d41524b203d2036,
  0x23204d652040737461626c652049435520322e30,
  0x47435f454e434c4f53494e475f4d41524b203d2037,
  0x23204d632040737461626c652049435520322e30,
  0x47435f434f4d42494e494e475f53504143494e475f4d41524b203d2038,
  0x23204e642040737461626c652049435520322e30,
  0x47435f444543494d414c5f44494749545f4e554d424552203d2039,
  0x23204e6c2040737461626c652049435520322e30,
  0x47435f4c45545445525f4e554d424552203d203130,
  0x23204e6f2040737461626c652049435520322e30,
  0x47435f4f544845525f4e554d424552203d203131,
  0x23205a732040737461626c652049435520322e30,
  0x47435f53504143455f534550415241544f52203d203132,
  0x23205a6c2040737461626c652049435520322e30,
  0x47435f4c494e455f534550415241544f52203d203133,
  0x23205a702040737461626c652049435520322e30,
  0x47435f5041524147524150485f534550415241544f52203d203134,
  0x232043632040737461626c652049435520322e30,
  0x47435f434f4e54524f4c5f43484152203d203135,
  0x232043662040737461626c652049435520322e30,
  0x47435f464f524d41545f43484152203d203136,
  0x2320436f2040737461626c652049435520322e30,
  0x47435f505249564154455f5553455f43484152203d203137,
  0x232043732040737461626c652049435520322e30,
  0x47435f535552524f47415445203d203138,
  0x232050642040737461626c652049435520322e30,
  0x47435f444153485f50554e4354554154494f4e203d203139,
  0x232050732040737461626c652049435520322e30,
  0x47435f53544152545f50554e4354554154494f4e203d203230,
  0x232050652040737461626c652049435520322e30,
  0x47435f454e445f50554e4354554154494f4e203d203231,
  0x232050632040737461626c652049435520322e30,
  0x47435f434f4e4e4543544f525f50554e4354554154494f4e203d203232,
  0x2320506f2040737461626c652049435520322e30,
  0x47435f4f544845525f50554e4354554154494f4e203d203233,
  0x2320536d2040737461626c652049435520322e30,
  0x47435f4d4154485f53594d424f4c203d203234,
  0x232053632040737461626c652049435520322e30,
  0x47435f43555252454e43595f53594d424f4c203d203235,
  0x2320536b2040737461626c652049435520322e30,
  0x47435f4d4f4449464945525f53594d424f4c203d203236,
  0x2320536f2040737461626c652049435520322e30,
  0x47435f4f544845525f53594d424f4c203d203237,
  0x232050692040737461626c652049435520322e30,
  0x47435f494e495449414c5f50554e4354554154494f4e203d203238,
  0x232050662040737461626c652049435520322e30,
  0x47435f46494e414c5f50554e4354554154494f4e203d203239,
  0x0,
  0x47435f43415445464f52595f434f554e54203d203330,
  0x0,
  0x232047435f58585f4d41534b20636f6e7374616e7473206172652062697420666c61677320636f72726573706f6e64696e6720746f20556e69636f6465,
  0x232067656e6572616c2063617465676f72792076616c7565732e,
  0x2320466f7220656163682063617465676f72792c20746865206e7468206269742069732073657420696620746865206e756d657269632076616c7565206f6620746865,
  0x2320636f72726573706f6e64696e6720554368617243617465676f727920636f6e7374616e74206973206e2e,
  0x23,
  0x232054686572652061726520616c736f20736f6d652047435f595f4d41534b20636f6e7374616e747320666f722067726f757073206f662067656e6572616c2063617465676f72696573,
  0x23206c696b65204c20666f7220616c6c206c65747465722063617465676f726965732e,
  0x0,
  0x47435f434e5f4d41534b203d2031203c3c2047435f47454e4552414c5f4f544845525f5459504553,
  0x0,
  0x2320204d61736b20636f6e7374616e7420666f72206120554368617243617465676f72792e2040737461626c652049435520322e31,
  0x47435f4c555f4d41534b203d2031203c3c2047435f5550504552434153455f4c4554544552,
  0x2320204d61736b20636f6e7374616e7420666f72206120554368617243617465676f72792e2040737461626c652049435520322e31,
  0x47435f4c4c5f4d41534b203d2031203c3c2047435f4c4f574552434153455f4c4554544552,
  0x2320204d61736b20636f6e7374616e7420666f72206120554368617243617465676f72792e2040737461626c652049435520322e31,
  0x47435f4c545f4d41534b203d2031203c3c2047435f5449544c45434153455f4c4554544552,
  0x2320204d61736b20636f6e7374616e7420666f72206120554368617243617465676f72792e2040737461626c652049435520322e31,
  0x47435f4c4d5f4d41534b203d2031203c3c2047435f4d4f4449464945525f4c4554544552,
  0x2320204d61736b20636f6e7374616e7420666f72206120554368617243617465676f72792e2040737461626c652049435520322e31,
  0x47435f4c4f5f4d41534b203d2031203c3c2047435f4f544845525f4c4554544552,
  0x0,
  0x2320204d61736b20636f6e7374616e7420666f72206120554368617243617465676f72792e2040737461626c652049435520322e31,
  0x47435f4d4e5f4d41534b203d2031203c3c2047435f4e4f4e5f53504143494e475f4d41524b,
  0x2320204d61736b20636f6e7374616e7420666f72206120554368617243617465676f72792e2040737461626c652049435520322e31,
  0x47435f4d455f4d41534b203d2031203c3c2047435f454e434c4f53494e475f4d41524b,
  0x2320204d61736b20636f6e7374616e7420666f72206120554368617243617465676f72792e2040737461626c652049435520322e31,
  0x47435f4d435f4d41534b203d2031203c3c2047435f434f4d42494e494e475f53504143494e475f4d41524b,
  0x0,
  0x2320204d61736b20636f6e7374616e7420666f72206120554368617243617465676f72792e2040737461626c652049435520322e31,
  0x47435f4e445f4d41534b203d2031203c3c2047435f444543494d414c5f44494749545f4e554d424552,
  0x2320204d61736b20636f6e7374616e7420666f72206120554368617243617465676f72792e2040737461626c652049435520322e31,
  0x47435f4e4c5f4d41534b203d2031203c3c2047435f4c45545445525f4e554d424552,
  0x2320204d61736b20636f6e7374616e7420666f72206120554368617243617465676f72792e2040737461626c652049435520322e31,
  0x47435f4e4f5f4d41534b203d2031203c3c2047435f4f544845525f4e554d424552,
  0x0,
  0x2320204d61736b20636f6e7374616e7420666f72206120554368617243617465676f72792e2040737461626c652049435520322e31,
  0x47435f5a535f4d41534b203d2031203c3c2047435f53504143455f534550415241544f52,
  0x2320204d61736b20636f6e7374616e7420666f72206120554368617243617465676f72792e2040737461626c652049435520322e31,
  0x47435f5a4c5f4d41534b203d2031203c3c2047435f4c494e455f534550415241544f52,
  0x2320204d61736b20636f6e7374616e7420666f72206120554368617243617465676f72792e2040737461626c652049435520322e31,
  0x47435f5a505f4d41534b203d2031203c3c2047435f5041524147524150485f534550415241544f52,
  0x0,
  0x2320204d61736b20636f6e7374616e7420666f72206120554368617243617465676f72792e2040737461626c652049435520322e31,
  0x47435f43435f4d41534b203d2031203c3c2047435f434f4e54524f4c5f43484152,
  0x2320204d61736b20636f6e7374616e7420666f72206120554368617243617465676f72792e2040737461626c652049435520322e31,
  0x47435f43465f4d41534b203d2031203c3c2047435f464f524d41545f43484152,
  0x2320204d61736b20636f6e7374616e7420666f72206120554368617243617465676f72792e2040737461626c652049435520322e31,
  0x47435f434f5f4d41534b203d2031203c3c2047435f505249564154455f5553455f43484152,
  0x2320204d61736b20636f6e7374616e7420666f72206120554368617243617465676f72792e2040737461626c652049435520322e31,
  0x47435f43535f4d41534b203d2031203c3c2047435f535552524f47415445,
  0x0,
  0x2320204d61736b20636f6e7374616e7420666f72206120554368617243617465676f72792e2040737461626c652049435520322e31,
  0x47435f50445f4d41534b203d2031203c3c2047435f444153485f50554e4354554154494f4e,
  0x2320204d61736b20636f6e7374616e7420666f72206120554368617243617465676f72792e2040737461626c652049435520322e31,
  0x47435f50535f4d41534b203d2031203c3c2047435f53544152545f50554e4354554154494f4e,
  0x2320204d61736b20636f6e7374616e7420666f72206120554368617243617465676f72792e2040737461626c652049435520322e31,
  0x47435f50455f4d41534b203d2031203c3c2047435f454e445f50554e4354554154494f4e,
  0x2320204d61736b20636f6e7374616e7420666f72206120554368617243617465676f72792e2040737461626c652049435520322e31,
  0x47435f50435f4d41534b203d2031203c3c2047435f434f4e4e4543544f525f50554e4354554154494f4e,
  0x2320204d61736b20636f6e7374616e7420666f72206120554368617243617465676f72792e2040737461626c652049435520322e31,
  0x47435f504f5f4d41534b203d2031203c3c2047435f4f544845525f50554e4354554154494f4e,
  0x0,
  0x2320204d61736b20636f6e7374616e7420666f72206120554368617243617465676f72792e2040737461626c652049435520322e31,
  0x47435f534d5f4d41534b203d2031203c3c2047435f4d4154485f53594d424f4c,
  0x2320204d61736b20636f6e7374616e7420666f72206120554368617243617465676f72792e2040737461626c652049435520322e31,
  0x47435f53435f4d41534b203d2031203c3c2047435f43555252454e43595f53594d424f4c,
  0x2320204d61736b20636f6e7374616e7420666f72206120554368617243617465676f72792e2040737461626c652049435520322e31,
  0x47435f534b5f4d41534b203d2031203c3c2047435f4d4f4449464945525f53594d424f4c,
  0x2320204d61736b20636f6e7374616e7420666f72206120554368617243617465676f72792e2040737461626c652049435520322e31,
  0x47435f534f5f4d41534b203d2031203c3c2047435f4f544845525f53594d424f4c,
  0x0,
  0x2320204d61736b20636f6e7374616e7420666f72206120554368617243617465676f72792e2040737461626c652049435520322e31,
  0x47435f50495f4d41534b203d2031203c3c2047435f494e495449414c5f50554e4354554154494f4e,
  0x2320204d61736b20636f6e7374616e7420666f72206120554368617243617465676f72792e2040737461626c652049435520322e31,
  0x47435f50465f4d41534b203d2031203c3c2047435f46494e414c5f50554e4354554154494f4e,
  0x0,
  0x0,
  0x2320204d61736b20636f6e7374616e7420666f72206d756c7469706c6520554368617243617465676f7279206269747320284c204c657474657273292e2040737461626c652049435520322e31,
  0x47435f4c5f4d41534b203d202847435f4c555f4d41534b7c47435f4c4c5f4d41534b7c47435f4c545f4d41534b7c47435f4c4d5f4d41534b7c47435f4c4f5f4d41534b29,
  0x0,
  0x2320204d61736b20636f6e7374616e7420666f72206d756c7469706c6520554368617243617465676f7279206269747320284c43204361736564204c657474657273292e2040737461626c652049435520322e31,
  0x47435f4c435f4d41534b203d202847435f4c555f4d41534b7c47435f4c4c5f4d41534b7c47435f4c545f4d41534b29,
  0x0,
  0x2320204d61736b20636f6e7374616e7420666f72206d756c7469706c6520554368617243617465676f7279206269747320284d204d61726b73292e2040737461626c652049435520322e31,
  0x47435f4d5f4d41534b203d202847435f4d4e5f4d41534b7c47435f4d455f4d41534b7c47435f4d435f4d41534b29,
  0x0,
  0x2320204d61736b20636f6e7374616e7420666f72206d756c7469706c6520554368617243617465676f7279206269747320284e204e756d62657273292e2040737461626c652049435520322e31,
  0x47435f4e5f4d41534b203d202847435f4e445f4d41534b7c47435f4e4c5f4d41534b7c47435f4e4f5f4d41534b29,
  0x0,
  0x2320204d61736b20636f6e7374616e7420666f72206d756c7469706c6520554368617243617465676f7279206269747320285a20536570617261746f7273292e2040737461626c652049435520322e31,
  0x47435f5a5f4d41534b203d202847435f5a535f4d41534b7c47435f5a4c5f4d41534b7c47435f5a505f4d41534b29,
  0x0,
  0x2320204d61736b20636f6e7374616e7420666f72206d756c7469706c6520554368617243617465676f72792062697473202843204f7468657273292e2040737461626c652049435520322e31,
  0x47435f435f4d41534b203d202847435f434e5f4d41534b7c47435f43435f4d41534b7c47435f43465f4d41534b7c47435f434f5f4d41534b7c47435f43535f4d41534b29,
  0x0,
  0x2320204d61736b20636f6e7374616e7420666f72206d756c7469706c6520554368617243617465676f727920626974732028502050756e6374756174696f6e292e2040737461626c652049435520322e31,
  0x47435f505f4d41534b203d202847435f50445f4d41534b7c47435f50535f4d41534b7c47435f50455f4d41534b7c47435f50435f4d41534b7c47435f504f5f4d41534b7c47435f50495f4d41534b7c47435f50465f4d41534b29,
  0x0,
  0x2320204d61736b20636f6e7374616e7420666f72206d756c7469706c6520554368617243617465676f727920626974732028532053796d626f6c73292e2040737461626c652049435520322e31,
  0x47435f535f4d41534b203d202847435f534d5f4d41534b7c47435f53435f4d41534b7c47435f534b5f4d41534b7c47435f534f5f4d41534b29,
  0x0,
  0x67656e6572616c43617465676f72696573203d207b,
  0x2020202047435f47454e4552414c5f4f544845525f54595045533a2027436e272c,
  0x2020202047435f5550504552434153455f4c45545445523a20274c75272c,
  0x2020202047435f4c4f574552434153455f4c45545445523a20274c6c272c,
  0x2020202047435f5449544c45434153455f4c45545445523a20274c74272c,
  0x2020202047435f4d4f4449464945525f4c45545445523a20274c6d272c,
  0x2020202047435f4f544845525f4c45545445523a20274c6f272c,
  0x2020202047435f4e4f4e5f53504143494e475f4d41524b3a20274d6e272c,
  0x2020202047435f454e434c4f53494e475f4d41524b3a20274d65272c,
  0x2020202047435f434f4d42494e494e475f53504143494e475f4d41524b3a20274d63272c,
  0x2020202047435f444543494d414c5f44494749545f4e554d4245523a20274e64272c,
  0x2020202047435f4c45545445525f4e554d4245523a20274e6c272c,
  0x2020202047435f4f544845525f4e554d4245523a20274e6f272c,
  0x2020202047435f53504143455f534550415241544f523a20275a73272c,
  0x2020202047435f4c494e455f534550415241544f523a20275a6c272c,
  0x2020202047435f5041524147524150485f534550415241544f523a20275a70272c,
  0x2020202047435f434f4e54524f4c5f434841523a20274363272c,
  0x2020202047435f464f524d41545f434841523a20274366272c,
  0x2020202047435f505249564154455f5553455f434841523a2027436f272c,
  0x2020202047435f535552524f474154453a20274373272c,
  0x2020202047435f444153485f50554e4354554154494f4e3a20275064272c,
  0x2020202047435f53544152545f50554e4354554154494f4e3a20275073272c,
  0x2020202047435f454e445f50554e4354554154494f4e3a20275065272c,
  0x2020202047435f434f4e4e4543544f525f50554e4354554154494f4e3a20275063272c,
  0x2020202047435f4f544845525f50554e4354554154494f4e3a2027506f272c,
  0x2020202047435f4d4154485f53594d424f4c3a2027536d272c,
  0x2020202047435f43555252454e43595f53594d424f4c3a20275363272c,
  0x2020202047435f4d4f4449464945525f53594d424f4c3a2027536b272c,
  0x2020202047435f4f544845525f53594d424f4c3a2027536f272c,
  0x2020202047435f494e495449414c5f50554e4354554154494f4e3a20275069272c,
  0x2020202047435f46494e414c5f50554e4354554154494f4e3a2027506627,
  0x7d,
  0x0]

/-- UnicodeData/Utrie2.py:1-222 the lines of the file. -/
def Utrie2 : List Nat :=
 [0x2222225c,
  0x4261736564206f6e207574726965322e682c207574726965322e6370702066726f6d20494355,
  0x0,
  0x43726561746564206f6e204170722032382c2032303230,
  0x0,
  0x40617574686f722045726963204d61646572,
  0x222222,
  0x0,
  0x696d706f727420747970696e67,
  0x0,
  0x66726f6d202e5574696c697469657320696d706f7274206973537572726f676174652c206973537572726f676174654c6561642020232c206973537572726f67617465547261696c,
  0x0,
  0x636c61737320555472696532286f626a656374293a,
  0x2020202053484946545f31203d2036202b2035,
  0x2020202053484946545f32203d2035,
  0x2020202053484946545f315f32203d2053484946545f31202d2053484946545f32,
  0x0,
  0x202020204f4d49545445445f424d505f494e4445585f315f4c454e475448203d2030783130303030203e3e2053484946545f31,
  0x2020202043505f5045525f494e4445585f315f454e545259203d2031203c3c2053484946545f31,
  0x0,
  0x20202020494e4445585f325f424c4f434b5f4c454e475448203d2031203c3c2053484946545f315f32,
  0x20202020494e4445585f325f4d41534b203d20494e4445585f325f424c4f434b5f4c454e475448202d2031,
  0x0,
  0x20202020444154415f424c4f434b5f4c454e475448203d2031203c3c2053484946545f32,
  0x20202020444154415f4d41534b203d20444154415f424c4f434b5f4c454e475448202d2031,
  0x0,
  0x20202020494e4445585f5348494654203d2032,
  0x20202020444154415f4752414e554c4152495459203d2031203c3c20494e4445585f5348494654,
  0x20202020494e4445585f325f4f4646534554203d2030,
  0x0,
  0x202020204c5343505f494e4445585f325f4f4646534554203d2030783130303030203e3e2053484946545f32,
  0x202020204c5343505f494e4445585f325f4c454e475448203d203078343030203e3e2053484946545f32,
  0x20202020494e4445585f325f424d505f4c454e475448203d204c5343505f494e4445585f325f4f4646534554202b204c5343505f494e4445585f325f4c454e475448,
  0x20202020555446385f32425f494e4445585f325f4f4646534554203d20494e4445585f325f424d505f4c454e475448,
  0x20202020555446385f32425f494e4445585f325f4c454e475448203d203078383030203e3e203620202320552b303830302069732074686520666972737420636f646520706f696e7420616674657220322d62797465205554462d38,
  0x0,
  0x20202020494e4445585f315f4f4646534554203d20555446385f32425f494e4445585f325f4f4646534554202b20555446385f32425f494e4445585f325f4c454e475448,
  0x0,
  0x202020204241445f555446385f444154415f4f4646534554203d2030783830,
  0x20202020444154415f53544152545f4f4646534554203d2030784330,
  0x0,
  0x20202020646566205f5f696e69745f5f2873656c662c20696e6465783a206c6973745b696e745d2c20696e6465784c656e6774683a20696e742c20696e646578324e756c6c4f66667365743a20696e742c20646174614e756c6c4f66667365743a20696e742c206869676853746172743a20696e742c206869676856616c7565496e6465783a20696e742c20696e697469616c56616c75653a20696e74203d2030293a,
  0x202020202020202073656c662e696e646578203d20696e646578,
  0x202020202020202073656c662e696e6465784c656e677468203d20696e6465784c656e677468,
  0x202020202020202073656c662e646174614c656e677468203d206c656e28696e64657829202d20696e6465784c656e677468,
  0x202020202020202073656c662e696e646578324e756c6c4f6666736574203d20696e646578324e756c6c4f6666736574,
  0x202020202020202073656c662e646174614e756c6c4f6666736574203d20646174614e756c6c4f6666736574,
  0x202020202020202073656c662e686967685374617274203d20686967685374617274,
  0x202020202020202073656c662e6869676856616c7565496e646578203d206869676856616c7565496e646578,
  0x202020202020202073656c662e696e697469616c56616c7565203d20696e697469616c56616c7565,
  0x0,
  0x2020202064656620696e6465785261772873656c662c206f66667365743a20696e742c20633a20696e7429202d3e20696e743a,
  0x202020202020202072657475726e20282873656c662e696e6465785b6f6666736574202b202863203e3e2073656c662e53484946545f32295d29203c3c2073656c662e494e4445585f534849465429202b20286320262073656c662e444154415f4d41534b29,
  0x0,
  0x2020202023202320646566696e65205f5554524945325f494e4445585f46524f4d5f535550502874726965496e6465782c206329205c,
  0x202020202320282828696e7433325f7429282874726965496e646578295b205c,
  0x202020202320202020202020202020202020202020202874726965496e646578295b285554524945325f494e4445585f315f4f4646534554202d205554524945325f4f4d49545445445f424d505f494e4445585f315f4c454e47544829202b205c,
  0x2020202023202020202020202020202020202020202020202020202020202020202028286329203e3e205554524945325f53484946545f31295d202b205c,
  0x202020202320202020202020202020202020202020202828286329203e3e205554524945325f53484946545f32292026205554524945325f494e4445585f325f4d41534b295d29205c,
  0x20202020232020203c3c205554524945325f494e4445585f534849465429202b205c,
  0x20202020232020282863292026205554524945325f444154415f4d41534b2929,
  0x0,
  0x2020202064656620696e64657846726f6d537570702873656c662c20633a20696e7429202d3e20696e743a,
  0x2020202020202020696e64657831203d202873656c662e494e4445585f315f4f4646534554202d2073656c662e4f4d49545445445f424d505f494e4445585f315f4c454e47544829202b202863203e3e2073656c662e53484946545f3129,
  0x2020202020202020696e64657832203d2073656c662e696e6465785b696e646578315d202b20282863203e3e2073656c662e53484946545f322920262073656c662e494e4445585f325f4d41534b29,
  0x0,
  0x202020202020202072657475726e202873656c662e696e6465785b696e646578325d203c3c2073656c662e494e4445585f534849465429202b20286320262073656c662e444154415f4d41534b29,
  0x0,
  0x20202020232023646566696e65205f5554524945325f494e4445585f46524f4d5f435028747269652c2061736369694f66667365742c206329205c,
  0x202020202320282875696e7433325f74292863293c307864383030203f205c,
  0x202020202320202020205f5554524945325f494e4445585f52415728302c202874726965292d3e696e6465782c206329203a205c,
  0x202020202320202020202875696e7433325f74292863293c3d307866666666203f205c,
  0x20202020232020202020202020205f5554524945325f494e4445585f52415728205c,
  0x2020202023202020202020202020202020202863293c3d307864626666203f205554524945325f4c5343505f494e4445585f325f4f46465345542d283078643830303e3e5554524945325f53484946545f3229203a20302c205c,
  0x2020202023202020202020202020202020202874726965292d3e696e6465782c206329203a205c,
  0x20202020232020202020202020202875696e7433325f74292863293e3078313066666666203f205c,
  0x2020202023202020202020202020202020202861736369694f6666736574292b5554524945325f4241445f555446385f444154415f4f4646534554203a205c,
  0x2020202023202020202020202020202020202863293e3d2874726965292d3e686967685374617274203f205c,
  0x202020202320202020202020202020202020202020202874726965292d3e6869676856616c7565496e646578203a205c,
  0x202020202320202020202020202020202020202020205f5554524945325f494e4445585f46524f4d5f53555050282874726965292d3e696e6465782c20632929,
  0x2020202064656620696e64657846726f6d436f6465506f696e742873656c662c2061736369694f66667365743a20696e742c20633a20696e7429202d3e20696e743a,
  0x202020202020202069662063203c203078443830303a,
  0x20202020202020202020202072657475726e2073656c662e696e64657852617728302c206329,
  0x0,
  0x202020202020202069662063203c3d203078464646463a,
  0x2020202020202020202020206f6666736574203d20302069662063203e3d2030784443303020656c73652073656c662e4c5343505f494e4445585f325f4f4646534554202d2028307844383030203e3e2073656c662e53484946545f3229,
  0x20202020202020202020202072657475726e2073656c662e696e646578526177286f66667365742c206329,
  0x0,
  0x202020202020202069662063203e3d2030783130464646463a,
  0x20202020202020202020202072657475726e2061736369694f6666736574202b2073656c662e4241445f555446385f444154415f4f4646534554,
  0x0,
  0x202020202020202072657475726e2073656c662e6869676856616c7565496e6465782069662063203e3d2073656c662e68696768537461727420656c73652073656c662e696e64657846726f6d53757070286329,
  0x0,
  0x20202020646566206765742873656c662c20633a20696e7429202d3e20696e743a,
  0x202020202020202072657475726e2073656c662e696e6465785b73656c662e696e64657846726f6d436f6465506f696e742873656c662e696e6465784c656e6774682c2063295d,
  0x0,
  0x2020202064656620656e756d657261746f722873656c662c2073746172743a20696e74203d20302c206c696d69743a20696e74203d2030783131303030302c2076616c756546756e6374696f6e3a20747970696e672e4f7074696f6e616c5b747970696e672e43616c6c61626c655b2e2e2e2c20747970696e672e416e795d5d203d204e6f6e652c202a2a76616c756546756e6374696f6e417267733a20747970696e672e416e7929202d3e20747970696e672e4974657261746f725b7475706c655b72616e67652c20747970696e672e416e795d5d3a,
  0x20202020202020206966206e6f742076616c756546756e6374696f6e3a2076616c756546756e6374696f6e203d206c616d62646120763a2076,
  0x0,
  0x202020202020202023206765742074686520656e756d65726174696f6e2076616c7565207468617420636f72726573706f6e647320746f20616e20696e697469616c2d76616c75652074726965206461746120656e747279,
  0x2020202020202020696e697469616c56616c7565203d2076616c756546756e6374696f6e2873656c662e696e697469616c56616c75652c202a2a76616c756546756e6374696f6e4172677329,
  0x0,
  0x20202020202020202320736574207661726961626c657320666f722070726576696f75732072616e6765,
  0x2020202020202020707265764932426c6f636b203d202d31,
  0x202020202020202070726576426c6f636b203d202d31,
  0x202020202020202070726576203d207374617274,
  0x20202020202020207072657656616c7565203d2076616c756546756e6374696f6e28302c202a2a76616c756546756e6374696f6e4172677329,
  0x0,
  0x20202020202020202320656e756d657261746520696e6465782d3220626c6f636b73,
  0x202020202020202063203d207374617274,
  0x20202020202020207768696c652063203c206c696d697420616e642063203c2073656c662e6869676853746172743a,
  0x20202020202020202020202074656d704c696d6974203d206d696e2863202b2073656c662e43505f5045525f494e4445585f315f454e5452592c206c696d697429,
  0x0,
  0x20202020202020202020202069662063203c3d203078464646463a,
  0x202020202020202020202020202020202320576527726520696e2074686520424d50,
  0x202020202020202020202020202020206966206e6f74206973537572726f676174652863293a,
  0x20202020202020202020202020202020202020206932426c6f636b203d202863203e3e2073656c662e53484946545f3229,
  0x0,
  0x2020202020202020202020202020202020202020232069662074656d704c696d69742069732061626f76652074686520424d502c206c696d697420697420746f2074686520424d50,
  0x202020202020202020202020202020202020202069662074656d704c696d6974203e20307831303030303a,
  0x20202020202020202020202020202020202020202020202074656d704c696d6974203d2030783130303030,
  0x20202020202020202020202020202020656c6966206973537572726f676174654c6561642863293a,
  0x20202020202020202020202020202020202020202320456e756d65726174652076616c75657320666f72206c65616420737572726f6761746520636f646520706f696e74732c206e6f7420636f646520756e6974733a,
  0x2020202020202020202020202020202020202020232054686973207370656369616c20626c6f636b206861732068616c6620746865206e6f726d616c206c656e6774682e,
  0x20202020202020202020202020202020202020206932426c6f636b203d2073656c662e4c5343505f494e4445585f325f4f4646534554,
  0x202020202020202020202020202020202020202074656d704c696d6974203d206d696e283078444330302c206c696d697429,
  0x20202020202020202020202020202020656c73653a,
  0x20202020202020202020202020202020202020202320537769746368206261636b20746f20746865206e6f726d616c2070617274206f662074686520696e6465782d32207461626c652e,
  0x20202020202020202020202020202020202020202320456e756d657261746520746865207365636f6e642068616c66206f662074686520737572726f676174657320626c6f636b2e,
  0x20202020202020202020202020202020202020206932426c6f636b203d20307844433030203e3e2073656c662e53484946545f32,
  0x202020202020202020202020202020202020202074656d704c696d6974203d206d696e283078453030302c206c696d697429,
  0x202020202020202020202020656c73653a,
  0x202020202020202020202020202020202320737570706c656d656e7461727920636f646520706f696e74,
  0x202020202020202020202020202020206932426c6f636b203d2073656c662e696e6465785b2873656c662e494e4445585f315f4f4646534554202d2073656c662e4f4d49545445445f424d505f494e4445585f315f4c454e47544829202b,
  0x2020202020202020202020202020202020202020202020202020202020202863203e3e2073656c662e53484946545f31295d,
  0x0,
  0x202020202020202020202020202020206966206932426c6f636b203d3d20707265764932426c6f636b20616e64202863202d207072657629203e3d2073656c662e43505f5045525f494e4445585f315f454e5452593a,
  0x2020202020202020202020202020202020202020232054686520696e6465782d3220626c6f636b206973207468652073616d65206173207468652070726576696f7573206f6e652c20616e642066696c6c65642077697468207072657656616c75652e,
  0x202020202020202020202020202020202020202023204f6e6c7920706f737369626c6520666f7220737570706c656d656e7461727920636f646520706f696e7473206265636175736520746865206c696e6561722d424d5020696e6465782d32,
  0x202020202020202020202020202020202020202023207461626c65206372656174657320756e69717565206932426c6f636b2076616c7565732e,
  0x202020202020202020202020202020202020202063202b3d2073656c662e43505f5045525f494e4445585f315f454e545259,
  0x2020202020202020202020202020202020202020636f6e74696e7565,
  0x0,
  0x202020202020202020202020707265764932426c6f636b203d206932426c6f636b,
  0x2020202020202020202020206966206932426c6f636b203d3d2073656c662e696e646578324e756c6c4f66667365743a,
  0x2020202020202020202020202020202023207468697320697320746865206e756c6c20696e6465782d3220626c6f636b,
  0x202020202020202020202020202020206966207072657656616c756520213d20696e697469616c56616c75653a,
  0x202020202020202020202020202020202020202069662070726576203c20633a207969656c642072616e676528707265762c2063292c207072657656616c7565,
  0x0,
  0x202020202020202020202020202020202020202070726576426c6f636b203d2073656c662e646174614e756c6c4f6666736574,
  0x202020202020202020202020202020202020202070726576203d2063,
  0x20202020202020202020202020202020202020207072657656616c7565203d20696e697469616c56616c7565,
  0x0,
  0x2020202020202020202020202020202063202b3d2073656c662e43505f5045525f494e4445585f315f454e545259,
  0x202020202020202020202020656c73653a,
  0x202020202020202020202020202020202320656e756d6572617465206461746120626c6f636b7320666f72206f6e6520696e6465782d3220626c6f636b,
  0x2020202020202020202020202020202069662063203c3d203078464646463a,
  0x20202020202020202020202020202020202020202320576527726520696e2074686520424d50,
  0x202020202020202020202020202020202020202069325374617274203d2030,
  0x202020202020202020202020202020202020202069324c696d6974203d202874656d704c696d6974203e3e2073656c662e53484946545f3229202d206932426c6f636b,
  0x0,
  0x20202020202020202020202020202020202020202320696620776527726520696e20746865206869676820737572726f676174652072616e67652c2069324c696d69742077696c6c206265206e656761746976652c,
  0x20202020202020202020202020202020202020202320736f2077652077616e7420746f206a75737420646f20746865206869676820737572726f6167657420626c6f636b,
  0x202020202020202020202020202020202020202069662069324c696d6974203c20303a2069324c696d6974203d2030,
  0x20202020202020202020202020202020656c73653a,
  0x202020202020202020202020202020202020202069325374617274203d202863203e3e2073656c662e53484946545f322920262073656c662e494e4445585f325f4d41534b,
  0x202020202020202020202020202020202020202069324c696d6974203d202874656d704c696d6974203e3e2073656c662e53484946545f322920262073656c662e494e4445585f325f4d41534b,
  0x0,
  0x20202020202020202020202020202020202020206966202863203e3e2073656c662e53484946545f312920213d202874656d704c696d6974203e3e2073656c662e53484946545f31293a,
  0x20202020202020202020202020202020202020202020202069324c696d6974203d2073656c662e494e4445585f325f424c4f434b5f4c454e475448,
  0x0,
  0x20202020202020202020202020202020666f7220693220696e2072616e676528693253746172742c2069324c696d6974202b2031293a,
  0x2020202020202020202020202020202020202020626c6f636b203d2073656c662e696e6465785b6932426c6f636b202b2069325d203c3c2073656c662e494e4445585f5348494654,
  0x0,
  0x2020202020202020202020202020202020202020696620626c6f636b203d3d2070726576426c6f636b20616e64202863202d207072657629203e3d2073656c662e444154415f424c4f434b5f4c454e4754483a,
  0x202020202020202020202020202020202020202020202020232074686520626c6f636b206973207468652073616d65206173207468652070726576696f7573206f6e652c20616e642066696c6c65642077697468207072657656616c7565,
  0x20202020202020202020202020202020202020202020202063202b3d2073656c662e444154415f424c4f434b5f4c454e475448,
  0x202020202020202020202020202020202020202020202020636f6e74696e7565,
  0x0,
  0x202020202020202020202020202020202020202070726576426c6f636b203d20626c6f636b,
  0x2020202020202020202020202020202020202020696620626c6f636b203d3d2073656c662e646174614e756c6c4f66667365743a,
  0x20202020202020202020202020202020202020202020202023207468697320697320746865206e756c6c206461746120626c6f636b,
  0x2020202020202020202020202020202020202020202020206966207072657656616c756520213d20696e697469616c56616c75653a,
  0x2020202020202020202020202020202020202020202020202020202069662070726576203c20633a207969656c642072616e676528707265762c2063292c207072657656616c7565,
  0x0,
  0x2020202020202020202020202020202020202020202020202020202070726576203d2063,
  0x202020202020202020202020202020202020202020202020202020207072657656616c7565203d20696e697469616c56616c7565,
  0x0,
  0x20202020202020202020202020202020202020202020202063202b3d2073656c662e444154415f424c4f434b5f4c454e475448,
  0x2020202020202020202020202020202020202020656c73653a,
  0x2020202020202020202020202020202020202020202020206a5374617274203d206320262073656c662e444154415f4d41534b,
  0x2020202020202020202020202020202020202020202020206a4c696d6974203d206d696e2873656c662e444154415f424c4f434b5f4c454e4754482c206a5374617274202b2074656d704c696d6974202d206329,
  0x202020202020202020202020202020202020202020202020666f72206a20696e2072616e6765286a53746172742c206a4c696d6974293a,
  0x2020202020202020202020202020202020202020202020202020202076616c7565203d2076616c756546756e6374696f6e2873656c662e696e6465785b626c6f636b202b206a5d2c202a2a76616c756546756e6374696f6e4172677329,
  0x2020202020202020202020202020202020202020202020202020202069662076616c756520213d207072657656616c75653a,
  0x202020202020202020202020202020202020202020202020202020202020202069662070726576203c20633a207969656c642072616e676528707265762c2063292c207072657656616c7565,
  0x0,
  0x202020202020202020202020202020202020202020202020202020202020202070726576203d2063,
  0x20202020202020202020202020202020202020202020202020202020202020207072657656616c7565203d2076616c7565,
  0x0,
  0x2020202020202020202020202020202020202020202020202020202063202b3d2031,
  0x0,
  0x202020202020202069662063203e206c696d69743a,
  0x20202020202020202020202063203d206c696d697420202320636f756c642062652068696768657220696620696e2074686520696e646578324e756c6c4f6666736574,
  0x2020202020202020656c69662063203c206c696d69743a,
  0x202020202020202020202020232063203d3d20686967685374617274203c206c696d6974,
  0x20202020202020202020202076616c7565203d2076616c756546756e6374696f6e2873656c662e696e6465785b73656c662e6869676856616c7565496e6465785d2c202a2a76616c756546756e6374696f6e4172677329,
  0x20202020202020202020202069662076616c756520213d207072657656616c75653a,
  0x2020202020202020202020202020202069662070726576203c20633a207969656c642072616e676528707265762c2063292c207072657656616c7565,
  0x0,
  0x2020202020202020202020202020202070726576203d2063,
  0x202020202020202020202020202020207072657656616c7565203d2076616c7565,
  0x0,
  0x20202020202020202020202063203d206c696d6974,
  0x0,
  0x2020202020202020232064656c69766572206c6173742072616e6765,
  0x202020202020202069662070726576203c20633a207969656c642072616e676528707265762c2063292c207072657656616c7565,
  0x0,
  0x0,
  0x0,
  0x0,
  0x0,
  0x0]

/-- UnicodeData/CharProps.py:1-390 the lines of the file. -/
def CharProps : List Nat :=
 [0x696d706f727420747970696e67,
  0x0,
  0x66726f6d202e55747269653220696d706f727420555472696532,
  0x66726f6d202e4368617250726f70734461746120696d706f7274202a,
  0x66726f6d202e7570726f70735f6820696d706f7274202a,
  0x66726f6d202e757363726970745f6820696d706f7274202a,
  0x232066726f6d202e5543445479706544696374696f6e617269657320696d706f72742067656e6572616c43617465676f72794e616d65732061732067656e6572616c43617465676f72696573,
  0x232066726f6d202e5543445479706544696374696f6e617269657320696d706f7274207363726970744e616d657320617320736372697074436f646573,
  0x232066726f6d202e5543445479706544696374696f6e617269657320696d706f727420626c6f636b4e616d6573,
  0x66726f6d202e4368617261637465727320696d706f7274202a,
  0x66726f6d202e47656e6572616c43617465676f7269657320696d706f7274202a,
  0x0,
  0x70726f707354726965203d205554726965322870726f7073547269655f696e6465782c2070726f7073547269655f696e6465785f6c656e6774682c2070726f7073547269655f696e6465785f325f6e756c6c5f6f66667365742c2070726f7073547269655f646174615f6e756c6c5f6f66667365742c205c,
  0x2020202020202020202020202020202020202070726f7073547269655f686967685f73746172742c2070726f7073547269655f686967685f76616c75655f696e64657829,
  0x0,
  0x70726f7073566563746f7254726965203d205554726965322870726f7073566563746f7273547269655f696e6465782c2070726f7073566563746f7273547269655f696e6465785f6c656e6774682c2070726f7073566563746f7273547269655f696e6465785f325f6e756c6c5f6f66667365742c2070726f7073566563746f7273547269655f646174615f6e756c6c5f6f66667365742c205c,
  0x2020202020202020202020202020202020202020202020202070726f7073566563746f7273547269655f686967685f73746172742c2070726f7073566563746f7273547269655f686967685f76616c75655f696e64657829,
  0x0,
  0x64656620756e69636f646550726f7065727469657346726f6d566563496e64657828766563496e6465783a20696e742c20636f6c756d6e3a20696e74293a,
  0x2020202072657475726e2070726f7073566563746f72735b766563496e646578202b20636f6c756d6e5d,
  0x0,
  0x64656620676574556e69636f646550726f7065727469657328633a20696e742c20636f6c756d6e3a20696e74293a,
  0x20202020696620636f6c756d6e203e2070726f7073566563746f7273436f6c756d6e733a,
  0x202020202020202072657475726e2030,
  0x0,
  0x20202020766563496e646578203d2070726f7073566563746f72547269652e676574286329,
  0x2020202072657475726e20756e69636f646550726f7065727469657346726f6d566563496e64657828766563496e6465782c20636f6c756d6e29,
  0x0,
  0x6465662067656e6572616c43617465676f727946726f6d50726f70732870726f70733a20696e7429202d3e20696e743a,
  0x2020202072657475726e2070726f707320262030783146,
  0x0,
  0x6465662067657447656e6572616c43617465676f727928633a20696e7429202d3e20696e743a,
  0x2020202070726f7073203d2070726f7073547269652e676574286329,
  0x2020202072657475726e2067656e6572616c43617465676f727946726f6d50726f70732870726f707329,
  0x0,
  0x6465662067634d61736b2867633a20696e7429202d3e20696e743a,
  0x2020202072657475726e2031203c3c206763,
  0x0,
  0x6465662069734c6f77657228633a20696e7429202d3e20626f6f6c3a,
  0x2020202072657475726e2067657447656e6572616c43617465676f7279286329203d3d2047435f4c4f574552434153455f4c4554544552,
  0x0,
  0x646566206973557070657228633a20696e7429202d3e20626f6f6c3a,
  0x2020202072657475726e2067657447656e6572616c43617465676f7279286329203d3d2047435f5550504552434153455f4c4554544552,
  0x0,
  0x6465662069735469746c6528633a20696e7429202d3e20626f6f6c3a,
  0x2020202072657475726e2067657447656e6572616c43617465676f7279286329203d3d2047435f5449544c45434153455f4c4554544552,
  0x0,
  0x646566206973446967697428633a20696e7429202d3e20626f6f6c3a,
  0x2020202072657475726e2067657447656e6572616c43617465676f7279286329203d3d2047435f444543494d414c5f44494749545f4e554d424552,
  0x0,
  0x646566206973486578446967697428633a20696e7429202d3e20626f6f6c3a,
  0x202020206966206320696e2072616e67652843485f555f412c2043485f555f46202b203129206f72206320696e2072616e67652843485f555f612c2043485f555f66202b2031293a,
  0x202020202020202072657475726e2054727565,
  0x0,
  0x202020206966206320696e2072616e67652843485f555f46575f412c2043485f555f46575f46202b203129206f72206320696e2072616e67652843485f555f46575f612c2043485f555f46575f66202b2031293a,
  0x202020202020202072657475726e2054727565,
  0x0,
  0x2020202072657475726e2069734469676974286329,
  0x0,
  0x646566206973616c70686128633a20696e7429202d3e20626f6f6c3a,
  0x202020206763203d2067657447656e6572616c43617465676f7279286329,
  0x2020202072657475726e202867634d61736b2867632920262047435f4c5f4d41534b2920213d2030,
  0x0,
  0x646566206973416c706861626574696328633a20696e7429202d3e20626f6f6c3a,
  0x2020202070726f7073203d20676574556e69636f646550726f7065727469657328632c203129,
  0x2020202072657475726e202870726f70732026202831203c3c205550524f50535f414c5048414245544943292920213d2030,
  0x0,
  0x646566206973616c6e756d28633a20696e7429202d3e20626f6f6c3a,
  0x202020206763203d2067657447656e6572616c43617465676f7279286329,
  0x2020202072657475726e202867634d61736b286763292026202847435f4c5f4d41534b207c2047435f4e445f4d41534b292920213d2030,
  0x0,
  0x646566206973616c6e756d504f53495828633a20696e7429202d3e20626f6f6c3a,
  0x2020202072657475726e206973416c7068616265746963286329206f722069734469676974286329,
  0x0,
  0x646566206973446566696e656428633a20696e7429202d3e20626f6f6c3a,
  0x2020202072657475726e2067657447656e6572616c43617465676f727928632920213d2047435f554e41535349474e4544,
  0x0,
  0x6465662069736261736528633a20696e7429202d3e20626f6f6c3a,
  0x202020206763203d2067657447656e6572616c43617465676f7279286329,
  0x2020202072657475726e202867634d61736b286763292026202847435f4c5f4d41534b207c2047435f4e5f4d41534b207c2047435f4d435f4d41534b207c2047435f4d455f4d41534b292920213d2030,
  0x0,
  0x646566206973636e74726c28633a20696e7429202d3e20626f6f6c3a,
  0x202020206763203d2067657447656e6572616c43617465676f7279286329,
  0x2020202072657475726e202867634d61736b286763292026202847435f43435f4d41534b207c2047435f43465f4d41534b207c2047435f5a4c5f4d41534b207c2047435f5a505f4d41534b292920213d2030,
  0x0,
  0x64656620697349534f436f6e74726f6c28633a20696e7429202d3e20626f6f6c3a,
  0x2020202072657475726e2063203c3d20307830303146206f72206320696e2072616e6765283078303037462c203078303039462b3129,
  0x0,
  0x64656620697354686174436f6e74726f6c537061636528633a20696e7429202d3e20626f6f6c3a,
  0x202020202320536f6d6520636f6e74726f6c206368617261637465727320746861742061726520757365642061732073706163652e,
  0x2020202072657475726e2063203c3d203078396620616e6420282863203e3d2043485f54414220616e642063203c3d2043485f435229206f72202863203e3d203078316320616e642063203c3d203078316629206f722063203d3d2043485f4e4c29,
  0x0,
  0x646566206973546861744153434949436f6e74726f6c537061636528633a20696e7429202d3e20626f6f6c3a,
  0x2020202023204a61766120686173206465636964656420207468617420552b30303835204e6577204c696e65206973206e6f74207768697465737061636520616e79206d6f72652e,
  0x2020202072657475726e2063203c3d203078316620616e642063203e3d2043485f54414220616e64202863203c3d2043485f4352206f7220633e3d3078316329,
  0x0,
  0x646566206973737061636528633a20696e7429202d3e20626f6f6c3a,
  0x202020206763203d2067657447656e6572616c43617465676f7279286329,
  0x2020202072657475726e202867634d61736b2867632920262047435f5a5f4d41534b2920213d2030206f7220697354686174436f6e74726f6c5370616365286329,
  0x0,
  0x6465662069734a61766153706163654368617228633a20696e7429202d3e20626f6f6c3a,
  0x202020206763203d2067657447656e6572616c43617465676f7279286329,
  0x2020202072657475726e202867634d61736b2867632920262047435f5a5f4d41534b2920213d2030,
  0x0,
  0x6465662069735768697465537061636528633a20696e7429202d3e20626f6f6c3a,
  0x2020202069662063203d3d2043485f4e425350206f722063203d3d2043485f4649475552455350206f722063203d3d2043485f4e4e4253503a,
  0x202020202020202072657475726e2046616c7365,
  0x0,
  0x202020206763203d2067657447656e6572616c43617465676f7279286329,
  0x2020202072657475726e202867634d61736b2867632920262047435f5a5f4d41534b2920213d2030206f72206973546861744153434949436f6e74726f6c5370616365286329,
  0x0,
  0x646566206973426c616e6b28633a20696e7429202d3e20626f6f6c3a,
  0x2020202069662063203c3d203078303039463a,
  0x202020202020202072657475726e2063203d3d2043485f544142206f722063203d3d2043485f5350414345,
  0x0,
  0x202020206763203d2067657447656e6572616c43617465676f7279286329,
  0x2020202072657475726e206763203d3d2047435f53504143455f534550415241544f52,
  0x0,
  0x646566206973555768697465537061636528633a20696e7429202d3e20626f6f6c3a,
  0x2020202070726f7073203d20676574556e69636f646550726f7065727469657328632c203129,
  0x2020202072657475726e202870726f70732026202831203c3c205550524f50535f57484954455f5350414345292920213d2030,
  0x0,
  0x6465662069735072696e7428633a20696e7429202d3e20626f6f6c3a,
  0x202020206763203d2067657447656e6572616c43617465676f7279286329,
  0x202020202320636f6d706172696e67203d3d20302072657475726e732046616c736520666f72207468652063617465676f72696573206d656e74696f6e6564,
  0x2020202072657475726e202867634d61736b2867632920262047435f435f4d41534b29203d3d2030,
  0x0,
  0x6465662069735072696e74504f53495828633a20696e7429202d3e20626f6f6c3a,
  0x202020206763203d2067657447656e6572616c43617465676f7279286329,
  0x2020202072657475726e206763203d3d2047435f53504143455f534550415241544f52206f722069734772617068504f534958286329,
  0x0,
  0x646566206973677261706828633a20696e7429202d3e20626f6f6c3a,
  0x202020206763203d2067657447656e6572616c43617465676f7279286329,
  0x202020202320636f6d706172696e67203d3d20302072657475726e732046616c736520666f72207468652063617465676f72696573206d656e74696f6e6564,
  0x2020202072657475726e202867634d61736b286763292026202847435f43435f4d41534b207c2047435f43465f4d41534b207c2047435f43535f4d41534b207c2047435f434e5f4d41534b207c2047435f5a5f4d41534b2929203d3d2030,
  0x0,
  0x6465662069734772617068504f53495828633a20696e7429202d3e20626f6f6c3a,
  0x202020206763203d2067657447656e6572616c43617465676f7279286329,
  0x202020202320636f6d706172696e67203d3d20302072657475726e732046616c736520666f72207468652063617465676f72696573206d656e74696f6e6564,
  0x2020202072657475726e202867634d61736b286763292026202847435f43435f4d41534b207c2047435f43535f4d41534b207c2047435f434e5f4d41534b207c2047435f5a5f4d41534b2929203d3d2030,
  0x0,
  0x64656620697370756e637428633a20696e7429202d3e20626f6f6c3a,
  0x202020206763203d2067657447656e6572616c43617465676f7279286329,
  0x2020202072657475726e202867634d61736b2867632920262047435f505f4d41534b2920213d2030,
  0x0,
  0x6465662069734944537461727428633a20696e7429202d3e20626f6f6c3a,
  0x202020206763203d2067657447656e6572616c43617465676f7279286329,
  0x2020202072657475726e202867634d61736b28676329202620282047435f4c5f4d41534b207c2047435f4e4c5f4d41534b292920213d2030,
  0x0,
  0x64656620697349445061727428633a20696e7429202d3e20626f6f6c3a,
  0x202020206763203d2067657447656e6572616c43617465676f7279286329,
  0x2020202072657475726e202867634d61736b28676329202620282047435f4e445f4d41534b207c2047435f4e4c5f4d41534b207c2047435f4c5f4d41534b207c2047435f50435f4d41534b207c2047435f4d435f4d41534b207c2047435f4d4e5f4d41534b292920213d2030206f72206973494449676e6f7261626c65286329,
  0x0,
  0x646566206973494449676e6f7261626c6528633a20696e7429202d3e20626f6f6c3a,
  0x2020202069662063203c203078303039463a,
  0x2020202020202020697349534f436f6e74726f6c28632920616e64206e6f74206973546861744153434949436f6e74726f6c5370616365286329,
  0x0,
  0x202020206763203d2067657447656e6572616c43617465676f7279286329,
  0x2020202072657475726e206763203d3d2047435f464f524d41545f43484152,
  0x0,
  0x6465662069734a6176614944537461727428633a20696e7429202d3e20626f6f6c3a,
  0x202020206763203d2067657447656e6572616c43617465676f7279286329,
  0x2020202072657475726e202867634d61736b286763292026202847435f4c5f4d41534b207c2047435f53435f4d41534b207c2047435f50435f4d41534b292920213d2030,
  0x0,
  0x6465662069734a61766149445061727428633a20696e7429202d3e20626f6f6c3a,
  0x202020206763203d2067657447656e6572616c43617465676f7279286329,
  0x2020202072657475726e202867634d61736b286763292026202847435f4e445f4d41534b207c2047435f4e4c5f4d41534b207c2047435f4c5f4d41534b207c2047435f53435f4d41534b207c2047435f50435f4d41534b207c47435f4d435f4d41534b207c2047435f4d4e5f4d41534b292920213d2030206f72206973494449676e6f7261626c65286329,
  0x0,
  0x64656620646967697456616c756528633a20696e7429202d3e20696e743a,
  0x2020202076616c7565203d206765744e756d657269635479706556616c7565286329202d205550524f50535f4e54565f444543494d414c5f5354415254,
  0x2020202072657475726e2076616c75652069662076616c7565203c3d203920656c7365202d31,
  0x0,
  0x646566206e756d657269635479706546726f6d50726f70732870726f70733a20696e7429202d3e20696e743a,
  0x2020202072657475726e2070726f707320262030783146,
  0x0,
  0x646566206765744e756d657269635479706528633a20696e7429202d3e20696e743a,
  0x2020202070726f7073203d2070726f7073547269652e676574286329,
  0x2020202072657475726e206e756d657269635479706546726f6d50726f70732870726f707329,
  0x0,
  0x646566206e756d657269635479706556616c756546726f6d50726f70732870726f70733a20696e7429202d3e20696e743a,
  0x2020202072657475726e2070726f7073203e3e205550524f50535f4e554d455249435f545950455f56414c55455f5348494654,
  0x0,
  0x646566206765744e756d657269635479706556616c756528633a20696e7429202d3e20696e743a,
  0x2020202070726f7073203d2070726f7073547269652e676574286329,
  0x2020202072657475726e2070726f7073203e3e205550524f50535f4e554d455249435f545950455f56414c55455f5348494654,
  0x0,
  0x646566206e756d6572696356616c756546726f6d50726f70732870726f70733a20696e7429202d3e20747970696e672e4f7074696f6e616c5b666c6f61745d3a,
  0x202020206e7476203d206e756d657269635479706556616c756546726f6d50726f70732870726f707329,
  0x0,
  0x202020206966206e7476203d3d205550524f50535f4e54565f4e4f4e453a,
  0x202020202020202072657475726e204e6f6e65,
  0x0,
  0x202020206966206e7476203c205550524f50535f4e54565f44494749545f53544152543a,
  0x20202020202020202320646563696d616c206469676974,
  0x202020202020202072657475726e206e7476202d205550524f50535f4e54565f444543494d414c5f5354415254,
  0x0,
  0x202020206966206e7476203c205550524f50535f4e54565f4e554d455249435f53544152543a,
  0x202020202020202023206f74686572206469676974,
  0x202020202020202072657475726e206e7476202d205550524f50535f4e54565f44494749545f5354415254,
  0x0,
  0x202020206966206e7476203c205550524f50535f4e54565f4652414354494f4e5f53544152543a,
  0x20202020202020202320736d616c6c20696e7465676572,
  0x202020202020202072657475726e206e7476202d205550524f50535f4e54565f4e554d455249435f5354415254,
  0x0,
  0x202020206966206e7476203c205550524f50535f4e54565f4c415247455f53544152543a,
  0x202020202020202023206672616374696f6e,
  0x20202020202020206e756d657261746f72203d20286e7476203e3e203429202d203132,
  0x202020202020202064656e6f6d696e61746f72203d20286e747620262030786629202b2031,
  0x202020202020202072657475726e206e756d657261746f72202f2064656e6f6d696e61746f72,
  0x0,
  0x202020206966206e7476203c205550524f50535f4e54565f4241534536305f53544152543a,
  0x202020202020202023206c617267652c2073696e676c652d7369676e69666963616e742d646967697420696e7465676572,
  0x20202020202020206d616e74203d20286e7476203e3e203529202d203134,
  0x2020202020202020657870203d20286e74762026203078316629202b2032,
  0x20202020202020206e756d56616c7565203d206d616e74,
  0x0,
  0x202020202020202023206d756c7469706c792062792031305e65787020776974686f7574206d6174682e68,
  0x20202020202020207768696c6520657870203e3d20343a,
  0x2020202020202020202020206e756d56616c7565202a3d2031303030302e30,
  0x202020202020202020202020657870202d3d2034,
  0x0,
  0x2020202020202020696620657870203d3d20333a,
  0x2020202020202020202020206e756d56616c7565202a3d20313030302e30,
  0x2020202020202020656c696620657870203d3d20323a,
  0x2020202020202020202020206e756d56616c7565202a3d203130302e30,
  0x2020202020202020656c696620657870203d3d20313a,
  0x2020202020202020202020206e756d56616c7565202a3d2031302e30,
  0x0,
  0x202020202020202072657475726e206e756d56616c7565,
  0x0,
  0x202020206966206e7476203c205550524f50535f4e54565f4652414354494f4e32305f53544152543a,
  0x2020202020202020232073657861676573696d616c2028626173652036302920696e7465676572,
  0x20202020202020206e756d56616c7565203d20286e7476203e3e203229202d2030786266,
  0x2020202020202020657870203d20286e74762026203329202b2031,
  0x0,
  0x2020202020202020696620657870203d3d20343a,
  0x2020202020202020202020206e756d56616c7565202a3d2036302a36302a36302a3630,
  0x2020202020202020656c696620657870203d3d20333a,
  0x2020202020202020202020206e756d56616c7565202a3d2036302a36302a3630,
  0x2020202020202020656c696620657870203d3d20323a,
  0x2020202020202020202020206e756d56616c7565202a3d2036302a3630,
  0x2020202020202020656c696620657870203d3d20313a,
  0x2020202020202020202020206e756d56616c7565202a3d203630,
  0x0,
  0x202020202020202072657475726e206e756d56616c7565,
  0x0,
  0x202020206966206e7476203c205550524f50535f4e54565f4652414354494f4e33325f53544152543a,
  0x202020202020202023206672616374696f6e2d323020652e672e20332f3830,
  0x2020202020202020667261633230203d206e74762d5550524f50535f4e54565f4652414354494f4e32305f535441525420202320302e2e30783137,
  0x20202020202020206e756d657261746f72203d2032202a20286672616332302026203329202b2031,
  0x202020202020202064656e6f6d696e61746f72203d203230203c3c2028667261633230203e3e203229,
  0x0,
  0x202020202020202072657475726e206e756d657261746f722f64656e6f6d696e61746f72,
  0x0,
  0x202020206966206e7476203c205550524f50535f4e54565f52455345525645445f53544152543a,
  0x202020202020202023206672616374696f6e2d333220652e672e20332f3634,
  0x2020202020202020667261633332203d206e74762d5550524f50535f4e54565f4652414354494f4e33325f535441525420202320302e2e3135,
  0x20202020202020206e756d657261746f72203d2032202a20286672616333322026203329202b2031,
  0x202020202020202064656e6f6d696e61746f72203d203332203c3c2028667261633332203e3e203229,
  0x0,
  0x202020202020202072657475726e206e756d657261746f722f64656e6f6d696e61746f72,
  0x0,
  0x2020202072657475726e204e6f6e65,
  0x0,
  0x646566206765744e756d6572696356616c756528633a20696e7429202d3e20747970696e672e4f7074696f6e616c5b666c6f61745d3a,
  0x2020202070726f7073203d2070726f7073547269652e676574286329,
  0x2020202072657475726e206e756d6572696356616c756546726f6d50726f70732870726f707329,
  0x0,
  0x6465662061676546726f6d50726f70732870726f70733a20696e7429202d3e206c6973745b696e745d3a,
  0x20202020616765203d2070726f7073203e3e205550524f50535f4147455f5348494654,
  0x2020202072657475726e205b616765203e3e20342c206167652026203078462c20302c20305d,
  0x0,
  0x6465662067657441676528633a20696e7429202d3e206c6973745b696e745d3a,
  0x2020202070726f7073203d20676574556e69636f646550726f7065727469657328632c203029,
  0x2020202072657475726e2061676546726f6d50726f70732870726f707329,
  0x0,
  0x646566206d65726765536372697074436f64654f72496e64657828736372697074583a20696e7429202d3e20696e743a,
  0x2020202072657475726e205c,
  0x20202020202020202828736372697074582026205550524f50535f5343524950545f484947485f4d41534b29203e3e205550524f50535f5343524950545f484947485f534849465429207c205c,
  0x202020202020202028736372697074582026205550524f50535f5343524950545f4c4f575f4d41534b29,
  0x0,
  0x6465662073637269707446726f6d566563496e64657828766563496e6465783a20696e7429202d3e20696e743a,
  0x2020202070726f7073203d20756e69636f646550726f7065727469657346726f6d566563496e64657828766563496e6465782c203029,
  0x2020202073637269707458203d2070726f70732026205550524f50535f5343524950545f585f4d41534b,
  0x20202020636f64654f72496e646578203d206d65726765536372697074436f64654f72496e646578287363726970745829,
  0x0,
  0x2020202069662073637269707458203c205550524f50535f5343524950545f585f574954485f434f4d4d4f4e3a,
  0x202020202020202072657475726e20636f64654f72496e646578,
  0x0,
  0x2020202069662073637269707458203c205550524f50535f5343524950545f585f574954485f494e484552495445443a,
  0x202020202020202072657475726e20555343524950545f434f4d4d4f4e,
  0x0,
  0x2020202069662073637269707458203c205550524f50535f5343524950545f585f574954485f4f544845523a,
  0x202020202020202072657475726e20555343524950545f494e48455249544544,
  0x0,
  0x2020202072657475726e20736372697074457874656e73696f6e735b636f64654f72496e6465785d,
  0x0,
  0x6465662067657453637269707428633a20696e74292d3e20696e743a,
  0x2020202069662063203e2030783130464646463a,
  0x202020202020202072657475726e20555343524950545f494e56414c49445f434f4445,
  0x0,
  0x20202020766563496e646578203d2070726f7073566563746f72547269652e676574286329,
  0x0,
  0x2020202072657475726e2073637269707446726f6d566563496e64657828766563496e64657829,
  0x0,
  0x64656620626c6f636b46726f6d566563496e64657828766563496e6465783a20696e7429202d3e20696e743a,
  0x2020202070726f7073203d20756e69636f646550726f7065727469657346726f6d566563496e64657828766563496e6465782c203029,
  0x2020202072657475726e202870726f70732026205550524f50535f424c4f434b5f4d41534b29203e3e205550524f50535f424c4f434b5f5348494654,
  0x0,
  0x64656620676574426c6f636b28633a20696e7429202d3e20696e743a,
  0x20202020766563496e646578203d2070726f7073566563746f72547269652e676574286329,
  0x2020202072657475726e20626c6f636b46726f6d566563496e64657828766563496e64657829,
  0x0,
  0x6465662065617374417369616e576964746846726f6d566563496e64657828766563496e6465783a20696e7429202d3e20696e743a,
  0x2020202070726f7073203d20756e69636f646550726f7065727469657346726f6d566563496e64657828766563496e6465782c203029,
  0x0,
  0x2020202072657475726e202870726f70732026205550524f50535f45415f4d41534b29203e3e205550524f50535f45415f5348494654,
  0x0,
  0x6465662067657445617374417369616e576964746828633a20696e7429202d3e20696e743a,
  0x20202020766563496e646578203d2070726f7073566563746f72547269652e676574286329,
  0x2020202072657475726e2065617374417369616e576964746846726f6d566563496e64657828766563496e64657829,
  0x0,
  0x646566206c696e65427265616b46726f6d566563496e64657828766563496e6465783a20696e7429202d3e20696e743a,
  0x2020202070726f7073203d20756e69636f646550726f7065727469657346726f6d566563496e64657828766563496e6465782c203229,
  0x2020202072657475726e202870726f70732026205550524f50535f4c425f4d41534b29203e3e205550524f50535f4c425f5348494654,
  0x0,
  0x646566206765744c696e65427265616b28633a20696e7429202d3e20696e743a,
  0x20202020766563496e646578203d2070726f7073566563746f72547269652e676574286329,
  0x2020202072657475726e206c696e65427265616b46726f6d566563496e64657828766563496e64657829,
  0x0,
  0x6465662073656e74656e6365427265616b46726f6d566563496e64657828766563496e6465783a20696e7429202d3e20696e743a,
  0x2020202070726f7073203d20756e69636f646550726f7065727469657346726f6d566563496e64657828766563496e6465782c203229,
  0x2020202072657475726e202870726f70732026205550524f50535f53425f4d41534b29203e3e205550524f50535f53425f5348494654,
  0x0,
  0x6465662067657453656e74656e6365427265616b28633a20696e7429202d3e20696e743a,
  0x20202020766563496e646578203d2070726f7073566563746f72547269652e676574286329,
  0x2020202072657475726e2073656e74656e6365427265616b46726f6d566563496e64657828766563496e64657829,
  0x0,
  0x64656620776f7264427265616b46726f6d566563496e64657828766563496e6465783a20696e7429202d3e20696e743a,
  0x2020202070726f7073203d20756e69636f646550726f7065727469657346726f6d566563496e64657828766563496e6465782c203229,
  0x2020202072657475726e202870726f70732026205550524f50535f57425f4d41534b29203e3e205550524f50535f57425f5348494654,
  0x0,
  0x64656620676574576f7264427265616b28633a20696e7429202d3e20696e743a,
  0x20202020766563496e646578203d2070726f7073566563746f72547269652e676574286329,
  0x2020202072657475726e20776f7264427265616b46726f6d566563496e64657828766563496e64657829,
  0x0,
  0x646566206772617068656d65436c7573746572427265616b46726f6d566563496e64657828766563496e6465783a20696e7429202d3e20696e743a,
  0x2020202070726f7073203d20756e69636f646550726f7065727469657346726f6d566563496e64657828766563496e6465782c203229,
  0x2020202072657475726e202870726f70732026205550524f50535f4743425f4d41534b29203e3e205550524f50535f4743425f5348494654,
  0x0,
  0x646566206765744772617068656d65436c7573746572427265616b28633a20696e7429202d3e20696e743a,
  0x20202020766563496e646578203d2070726f7073566563746f72547269652e676574286329,
  0x2020202072657475726e206772617068656d65436c7573746572427265616b46726f6d566563496e64657828766563496e64657829,
  0x0,
  0x646566206465636f6d705479706546726f6d566563496e64657828766563496e6465783a20696e7429202d3e20696e743a,
  0x2020202070726f7073203d20756e69636f646550726f7065727469657346726f6d566563496e64657828766563496e6465782c203229,
  0x2020202072657475726e2070726f70732026205550524f50535f44545f4d41534b,
  0x0,
  0x646566206765744465636f6d705479706528633a20696e7429202d3e20696e743a,
  0x20202020766563496e646578203d2070726f7073566563746f72547269652e676574286329,
  0x2020202072657475726e206465636f6d705479706546726f6d566563496e64657828766563496e64657829,
  0x0,
  0x6465662062696e61727950726f7046726f6d566563496e64657828766563496e6465783a20696e742c2070726f7053686966743a20696e742c20636f6c756d6e3a20696e7429202d3e20626f6f6c3a,
  0x2020202070726f7073203d20756e69636f646550726f7065727469657346726f6d566563496e64657828766563496e6465782c20636f6c756d6e29,
  0x2020202072657475726e202870726f70732026202831203c3c2070726f705368696674292920213d2030,
  0x0,
  0x6465662067657442696e61727950726f7028633a20696e742c2070726f7053686966743a20696e742c20636f6c756d6e3a20696e74203d203129202d3e20626f6f6c3a,
  0x2020202069662070726f705368696674203e3d205550524f50535f42494e4152595f315f544f503a,
  0x202020202020202072657475726e2046616c7365202023205573656420746f206265204e6f6e65,
  0x0,
  0x20202020766563496e646578203d2070726f7073566563746f72547269652e676574286329,
  0x2020202072657475726e2062696e61727950726f7046726f6d566563496e64657828766563496e6465782c2070726f7053686966742c20636f6c756d6e29,
  0x0,
  0x646566206973457874656e646564506963746f677261706828633a20696e7429202d3e20626f6f6c3a,
  0x2020202072657475726e2067657442696e61727950726f7028632c205550524f50535f325f455854454e4445445f504943544f475241504849432c203229,
  0x0,
  0x646566206973456d6f6a69436f6d706f6e656e7428633a20696e7429202d3e20626f6f6c3a,
  0x2020202072657475726e2067657442696e61727950726f7028632c205550524f50535f325f454d4f4a495f434f4d504f4e454e542c203229,
  0x0,
  0x646566206973456d6f6a6928633a20696e7429202d3e20626f6f6c3a,
  0x2020202072657475726e2067657442696e61727950726f7028632c205550524f50535f325f454d4f4a492c203229,
  0x0,
  0x646566206973456d6f6a6950726573656e746174696f6e28633a20696e7429202d3e20626f6f6c3a,
  0x2020202072657475726e2067657442696e61727950726f7028632c205550524f50535f325f454d4f4a495f50524553454e544154494f4e2c203229,
  0x0,
  0x646566206973456d6f6a694d6f64696669657228633a20696e7429202d3e20626f6f6c3a,
  0x2020202072657475726e2067657442696e61727950726f7028632c205550524f50535f325f454d4f4a495f4d4f4449464945522c203229,
  0x0,
  0x646566206973456d6f6a694d6f6469666965724261736528633a20696e7429202d3e20626f6f6c3a,
  0x2020202072657475726e2067657442696e61727950726f7028632c205550524f50535f325f454d4f4a495f4d4f4449464945525f424153452c203229,
  0x0]

/-- UnicodeData/BidiProps.py:1-145 the lines of the file. -/
def BidiProps : List Nat :=
 [0x2222225c,
  0x4261736564206f6e2075626964695f70726f70732e682c2075626964695f70726f70732e6370702066726f6d20494355,
  0x0,
  0x43726561746564206f6e204d617920312c2032303230,
  0x0,
  0x40617574686f722045726963204d61646572,
  0x222222,
  0x0,
  0x66726f6d202e4269646950726f70734461746120696d706f7274202a,
  0x66726f6d202e55747269653220696d706f727420555472696532,
  0x66726f6d202e75636861725f6820696d706f7274202a,
  0x232066726f6d202e5543445479706544696374696f6e617269657320696d706f72742062696469436c6173734e616d6573,
  0x232066726f6d202e5543445479706544696374696f6e617269657320696d706f7274206a6f696e696e67547970654e616d6573206173206a6f696e696e675479706573,
  0x232066726f6d202e5543445479706544696374696f6e617269657320696d706f7274206a6f696e696e6747726f75704e616d6573206173206a6f696e696e6747726f757073,
  0x66726f6d202e5574696c697469657320696d706f72742061726974686d657469635368696674,
  0x0,
  0x23696e646963657320696e746f2074686520696e6465786573206172726179,
  0x55424944495f49585f494e4445585f544f50203d2030,
  0x55424944495f49585f4c454e475448203d2031,
  0x55424944495f49585f545249455f53495a45203d2032,
  0x55424944495f49585f4d4952524f525f4c454e475448203d2033,
  0x0,
  0x55424944495f49585f4a475f5354415254203d2034,
  0x55424944495f49585f4a475f4c494d4954203d2035,
  0x55424944495f49585f4a475f535441525432203d2036202023202a6e657720696e20666f726d61742076657273696f6e20322e322c20494355203534,
  0x55424944495f49585f4a475f4c494d495432203d2037,
  0x0,
  0x55424944495f4d41585f56414c5545535f494e444558203d2031352c,
  0x55424944495f49585f544f50203d203136,
  0x0,
  0x2320646566696e6974696f6e7320666f722031362d62697420626964692f73686170696e672070726f7065727469657320776f7264,
  0x55424944495f434c4153535f5348494654203d2030202023206269646920636c6173733a203520626974732028342e2e3029,
  0x55424944495f4a545f5348494654203d2035202023206a6f696e696e6720747970653a203320626974732028372e2e3529,
  0x55424944495f4250545f5348494654203d203820202320426964695f5061697265645f427261636b65745f5479706528627074293a203220626974732028392e2e3829,
  0x0,
  0x55424944495f4a4f494e5f434f4e54524f4c5f5348494654203d203130,
  0x55424944495f424944495f434f4e54524f4c5f5348494654203d203131,
  0x0,
  0x55424944495f49535f4d4952524f5245445f5348494654203d20313220202320276973206d6972726f72656427,
  0x55424944495f4d4952524f525f44454c54415f5348494654203d2031332020232062696469206d6972726f72696e672064656c74613a20332062697473202831352e2e313329,
  0x55424944495f4d4952524f525f44454c54415f42495453203d203136202d2055424944495f4d4952524f525f44454c54415f5348494654,
  0x0,
  0x55424944495f4d41585f4a475f5348494654203d203136202023206d6178204a472076616c756520696e20696e64657865735b55424944495f4d41585f56414c5545535f494e4445585d20626974732032332e2e3136,
  0x0,
  0x55424944495f434c4153535f4d41534b203d2030783030303030303166,
  0x55424944495f4a545f4d41534b203d2030783030303030306530,
  0x55424944495f4250545f4d41534b203d2030783030303030333030,
  0x0,
  0x55424944495f4d41585f4a475f4d41534b203d2030783030666630303030,
  0x0,
  0x64656620676574436c61737346726f6d50726f70732870726f70733a20696e7429202d3e20696e743a,
  0x2020202072657475726e2070726f707320262055424944495f434c4153535f4d41534b,
  0x0,
  0x64656620676574466c616746726f6d50726f70732870726f70733a20696e742c2073686966743a20696e7429202d3e20626f6f6c3a,
  0x2020202072657475726e20282870726f7073203e3e20736869667429202620312920213d2030,
  0x0,
  0x646566206765744d6972726f7244656c746146726f6d50726f70732870726f70733a20696e7429202d3e20696e743a,
  0x2020202072657475726e2061726974686d6574696353686966742870726f70732c2031362c2055424944495f4d4952524f525f44454c54415f4249545329,
  0x0,
  0x55424944495f4553435f4d4952524f525f44454c5441203d202d34,
  0x55424944495f4d494e5f4d4952524f525f44454c5441203d202d33,
  0x55424944495f4d41585f4d4952524f525f44454c5441203d2033,
  0x0,
  0x2320646566696e6974696f6e73206f66207468652033322d626974206d6972726f72207461626c6520656e747279,
  0x232074686520736f7572636520636f64652074616b65732032312062697473202832302e2e3029,
  0x55424944495f4d4952524f525f494e4445585f5348494654203d203231,
  0x55424944495f4d41585f4d4952524f525f494e444558203d203078376666,
  0x0,
  0x6269646950726f707354726965203d205554726965322875626964695f70726f70735f74726965496e6465782c2075626964695f70726f70735f747269655f696e6465785f6c656e6774682c2075626964695f70726f70735f747269655f696e6465785f325f6e756c6c5f6f66667365742c205c,
  0x202020202020202020202020202020202020202020202075626964695f70726f70735f747269655f646174615f6e756c6c5f6f66667365742c2075626964695f70726f70735f747269655f686967685f73746172742c2075626964695f70726f70735f747269655f686967685f76616c75655f696e64657829,
  0x0,
  0x646566206765744d6972726f72436f6465506f696e7446726f6d50726f7073286d3a20696e7429202d3e20696e743a,
  0x2020202072657475726e206d2026203078314646464646,
  0x0,
  0x646566206765744d6972726f72496e64657846726f6d50726f7073286d3a20696e7429202d3e20696e743a,
  0x2020202072657475726e206d203e3e2055424944495f4d4952524f525f494e4445585f5348494654,
  0x0,
  0x6465662067657443686172446972656374696f6e28633a20696e7429202d3e20696e743a,
  0x2020202070726f7073203d206269646950726f7073547269652e676574286329,
  0x2020202072657475726e20676574436c61737346726f6d50726f70732870726f707329,
  0x0,
  0x6465662069734d6972726f72656428633a20696e7429202d3e20626f6f6c3a,
  0x2020202070726f7073203d206269646950726f7073547269652e676574286329,
  0x2020202072657475726e20676574466c616746726f6d50726f70732870726f70732c2055424944495f49535f4d4952524f5245445f534849465429,
  0x0,
  0x646566206765744d6972726f7246726f6d50726f707328633a20696e742c2070726f70733a20696e7429202d3e20696e743a,
  0x2020202064656c7461203d206765744d6972726f7244656c746146726f6d50726f70732870726f707329,
  0x0,
  0x2020202069662064656c746120213d2055424944495f4553435f4d4952524f525f44454c54413a,
  0x202020202020202072657475726e2063202b2064656c7461,
  0x0,
  0x20202020666f72206d20696e2075626964695f70726f70735f6d6972726f72733a,
  0x20202020202020206332203d206765744d6972726f72436f6465506f696e7446726f6d50726f7073286d29,
  0x0,
  0x202020202020202069662063203d3d2063323a,
  0x2020202020202020202020206d6972726f72496e646578203d206765744d6972726f72496e64657846726f6d50726f7073286d29,
  0x20202020202020202020202072657475726e206765744d6972726f72436f6465506f696e7446726f6d50726f70732875626964695f70726f70735f6d6972726f72735b6d6972726f72496e6465785d29,
  0x0,
  0x202020202020202069662063203c2063323a,
  0x202020202020202020202020627265616b,
  0x0,
  0x2020202072657475726e2063,
  0x0,
  0x646566206765744d6972726f7228633a20696e7429202d3e20696e743a,
  0x2020202070726f7073203d206269646950726f7073547269652e676574286329,
  0x2020202072657475726e206765744d6972726f7246726f6d50726f707328632c2070726f707329,
  0x0,
  0x64656620697342696469436f6e74726f6c28633a20696e7429202d3e20626f6f6c3a,
  0x2020202070726f7073203d206269646950726f7073547269652e676574286329,
  0x2020202072657475726e20676574466c616746726f6d50726f70732870726f70732c2055424944495f424944495f434f4e54524f4c5f534849465429,
  0x0,
  0x6465662069734a6f696e436f6e74726f6c28633a20696e7429202d3e20626f6f6c3a,
  0x2020202070726f7073203d206269646950726f7073547269652e676574286329,
  0x2020202072657475726e20676574466c616746726f6d50726f70732870726f70732c2055424944495f4a4f494e5f434f4e54524f4c5f534849465429,
  0x0,
  0x646566206765744a6f696e696e675479706528633a20696e7429202d3e20696e743a,
  0x2020202070726f7073203d206269646950726f7073547269652e676574286329,
  0x2020202072657475726e202870726f707320262055424944495f4a545f4d41534b29203e3e2055424944495f4a545f5348494654,
  0x0,
  0x646566206765744a6f696e696e6747726f757028633a20696e7429202d3e20696e743a,
  0x202020207374617274203d2075626964695f70726f70735f696e64657865735b55424944495f49585f4a475f53544152545d,
  0x202020206c696d6974203d2075626964695f70726f70735f696e64657865735b55424944495f49585f4a475f4c494d49545d,
  0x0,
  0x202020206966206320696e2072616e67652873746172742c206c696d6974293a,
  0x202020202020202072657475726e2075626964695f70726f70735f6a6741727261795b63202d2073746172745d,
  0x0,
  0x202020207374617274203d2075626964695f70726f70735f696e64657865735b55424944495f49585f4a475f5354415254325d,
  0x202020206c696d6974203d2075626964695f70726f70735f696e64657865735b55424944495f49585f4a475f4c494d4954325d,
  0x0,
  0x202020206966206320696e2072616e67652873746172742c206c696d6974293a,
  0x202020202020202072657475726e2075626964695f70726f70735f6a674172726179325b63202d2073746172745d,
  0x0,
  0x2020202072657475726e20555f4a475f4e4f5f4a4f494e494e475f47524f5550,
  0x0,
  0x64656620676574506169726564427261636b65745479706528633a20696e7429202d3e20696e743a,
  0x2020202070726f7073203d206269646950726f7073547269652e676574286329,
  0x2020202072657475726e202870726f707320262055424944495f4250545f4d41534b29203e3e2055424944495f4250545f5348494654,
  0x0,
  0x64656620676574506169726564427261636b657428633a20696e7429202d3e20696e743a,
  0x2020202070726f7073203d206269646950726f7073547269652e676574286329,
  0x202020206966202870726f707320262055424944495f4250545f4d41534b29203d3d20303a,
  0x202020202020202072657475726e2063,
  0x0,
  0x2020202072657475726e206765744d6972726f7246726f6d50726f707328632c2070726f707329,
  0x0,
  0x0]

/-- UnicodeData/CaseProps.py:1-314 the lines of the file. -/
def CaseProps : List Nat :=
 [0x2222225c,
  0x4261736564206f6e2075636173652e682c2075636173655f70726f70732e6370702066726f6d20494355,
  0x0,
  0x43726561746564206f6e204d617920382c2032303230,
  0x0,
  0x40617574686f722045726963204d61646572,
  0x222222,
  0x0,
  0x66726f6d202e4361736550726f70734461746120696d706f7274202a,
  0x66726f6d202e55747269653220696d706f727420555472696532,
  0x66726f6d202e5574696c697469657320696d706f72742061726974686d657469635368696674,
  0x0,
  0x2320496e646578657320696e746f2075636173655f70726f70735f696e6465786573,
  0x55434153455f49585f494e4445585f544f50203d2030,
  0x55434153455f49585f4c454e475448203d2031,
  0x55434153455f49585f545249455f53495a45203d2032,
  0x55434153455f49585f4558435f4c454e475448203d2033,
  0x55434153455f49585f554e464f4c445f4c454e475448203d2034,
  0x0,
  0x55434153455f49585f4d41585f46554c4c5f4c454e475448203d203135,
  0x55434153455f49585f544f50203d203136,
  0x0,
  0x2320322d62697420636f6e7374616e747320666f72207479706573206f662063617365642063686172616374657273,
  0x55434153455f545950455f4d41534b203d2033,
  0x55434153455f4e4f4e45203d2030,
  0x55434153455f4c4f574552203d2031,
  0x55434153455f5550504552203d2032,
  0x55434153455f5449544c45203d2033,
  0x0,
  0x55434153455f49474e4f5241424c45203d2034,
  0x55434153455f455843455054494f4e203d2038,
  0x55434153455f53454e534954495645203d2030783130,
  0x0,
  0x55434153455f444f545f4d41534b203d2030783630,
  0x55434153455f4e4f5f444f543d3020202020202020202023206e6f726d616c206368617261637465727320776974682063633d30,
  0x55434153455f534f46545f444f545445443d30783230202320736f66742d646f74746564206368617261637465727320776974682063633d30,
  0x55434153455f41424f56453d307834302020202020202023202261626f76652220616363656e747320776974682063633d323330,
  0x55434153455f4f544845525f414343454e543d307836302023206f7468657220616363656e74206368617261637465722028303c6363213d32333029,
  0x0,
  0x55434153455f50524f50535f42495453203d203136,
  0x23206e6f20657863657074696f6e3a20626974732031352e2e3720617265206120392d626974207369676e65642063617365206d617070696e672064656c7461,
  0x55434153455f44454c54415f42495453203d2039,
  0x55434153455f44454c54415f5348494654203d2037,
  0x55434153455f44454c54415f4d41534b203d20307866663830,
  0x55434153455f4d41585f44454c5441203d2030786666,
  0x55434153455f4d494e5f44454c5441203d20282d55434153455f4d41585f44454c54412d3129,
  0x0,
  0x2320657863657074696f6e3a20626974732031352e2e342061726520616e20756e7369676e65642031322d62697420696e64657820696e746f2074686520657863657074696f6e73206172726179,
  0x55434153455f4558435f5348494654203d2034,
  0x55434153455f4558435f4d41534b203d20307866666630,
  0x55434153455f4d41585f455843455054494f4e53203d20282855434153455f4558435f4d41534b203e3e2055434153455f4558435f534849465429202b203129,
  0x0,
  0x2320646566696e6974696f6e7320666f722031362d626974206d61696e20657863657074696f6e7320776f7264,
  0x0,
  0x232066697273742038206269747320696e6469636174652076616c75657320696e206f7074696f6e616c20736c6f7473,
  0x55434153455f4558435f4c4f574552203d2030,
  0x55434153455f4558435f464f4c44203d2031,
  0x55434153455f4558435f5550504552203d2032,
  0x55434153455f4558435f5449544c45203d2033,
  0x55434153455f4558435f44454c5441203d2034,
  0x55434153455f4558435f35203d2035202023207265736572766564,
  0x55434153455f4558435f434c4f53555245203d2036,
  0x55434153455f4558435f46554c4c5f4d415050494e4753203d2037,
  0x55434153455f4558435f414c4c5f534c4f545320203d20382023206f6e65207061737420746865206c61737420736c6f74,
  0x0,
  0x23206561636820736c6f7420697320322075696e7431365f7420696e7374656164206f662031,
  0x55434153455f4558435f444f55424c455f534c4f5453203d203078313030,
  0x0,
  0x55434153455f4558435f4e4f5f53494d504c455f434153455f464f4c44494e47203d203078323030,
  0x55434153455f4558435f44454c54415f49535f4e45474154495645203d203078343030,
  0x55434153455f4558435f53454e534954495645203d203078383030,
  0x0,
  0x55434153455f4558435f444f545f5348494654203d2037,
  0x55434153455f4558435f444f545f4d41534b20203d2055434153455f444f545f4d41534b203c3c2055434153455f4558435f444f545f5348494654,
  0x0,
  0x23206e6f726d616c6c792073746f72656420696e20746865206d61696e20776f72642c2062757420707573686564206f757420666f72206c617267657220657863657074696f6e20696e6465786573,
  0x55434153455f4558435f4e4f5f444f54203d2030,
  0x55434153455f4558435f534f46545f444f54544544203d20307831303030,
  0x55434153455f4558435f41424f5645203d2030783230303020202023202261626f76652220616363656e747320776974682063633d323330,
  0x55434153455f4558435f4f544845525f414343454e54203d203078333030302023206f74686572206368617261637465722830203c20636320213d2032333029,
  0x0,
  0x2320636f6d706c65782f636f6e646974696f6e616c206d617070696e6773,
  0x55434153455f4558435f434f4e444954494f4e414c5f5350454349414c203d20307834303030,
  0x55434153455f4558435f434f4e444954494f4e414c5f464f4c44203d20307838303030,
  0x0,
  0x2320646566696e6974696f6e7320666f72206c656e6774687320776f726420666f722066756c6c2063617365206d617070696e6773,
  0x55434153455f46554c4c5f4c4f574552203d20307866,
  0x55434153455f46554c4c5f464f4c44494e47203d2030786630,
  0x55434153455f46554c4c5f5550504552203d203078663030,
  0x55434153455f46554c4c5f5449544c45203d20307866303030,
  0x0,
  0x23206d6178696d756d206c656e67746873,
  0x55434153455f46554c4c5f4d415050494e47535f4d41585f4c454e475448203d2034202a20307866,
  0x55434153455f434c4f535552455f4d41585f4c454e475448203d20307866,
  0x0,
  0x2320636f6e7374616e747320666f722072657665727365206361736520666f6c64696e67202822756e666f6c6422292064617461,
  0x55434153455f554e464f4c445f524f5753203d2030,
  0x55434153455f554e464f4c445f524f575f5749445448203d2031,
  0x55434153455f554e464f4c445f535452494e475f5749445448203d2032,
  0x0,
  0x666c6167734f6666736574203d205b,
  0x20202020302c20312c20312c20322c20312c20322c20322c20332c20312c20322c20322c20332c20322c20332c20332c20342c,
  0x20202020312c20322c20322c20332c20322c20332c20332c20342c20322c20332c20332c20342c20332c20342c20342c20352c,
  0x20202020312c20322c20322c20332c20322c20332c20332c20342c20322c20332c20332c20342c20332c20342c20342c20352c,
  0x20202020322c20332c20332c20342c20332c20342c20342c20352c20332c20342c20342c20352c20342c20352c20352c20362c,
  0x20202020312c20322c20322c20332c20322c20332c20332c20342c20322c20332c20332c20342c20332c20342c20342c20352c,
  0x20202020322c20332c20332c20342c20332c20342c20342c20352c20332c20342c20342c20352c20342c20352c20352c20362c,
  0x20202020322c20332c20332c20342c20332c20342c20342c20352c20332c20342c20342c20352c20342c20352c20352c20362c,
  0x20202020332c20342c20342c20352c20342c20352c20352c20362c20342c20352c20352c20362c20352c20362c20362c20372c,
  0x20202020312c20322c20322c20332c20322c20332c20332c20342c20322c20332c20332c20342c20332c20342c20342c20352c,
  0x20202020322c20332c20332c20342c20332c20342c20342c20352c20332c20342c20342c20352c20342c20352c20352c20362c,
  0x20202020322c20332c20332c20342c20332c20342c20342c20352c20332c20342c20342c20352c20342c20352c20352c20362c,
  0x20202020332c20342c20342c20352c20342c20352c20352c20362c20342c20352c20352c20362c20352c20362c20362c20372c,
  0x20202020322c20332c20332c20342c20332c20342c20342c20352c20332c20342c20342c20352c20342c20352c20352c20362c,
  0x20202020332c20342c20342c20352c20342c20352c20352c20362c20342c20352c20352c20362c20352c20362c20362c20372c,
  0x20202020332c20342c20342c20352c20342c20352c20352c20362c20342c20352c20352c20362c20352c20362c20362c20372c,
  0x20202020342c20352c20352c20362c20352c20362c20362c20372c20352c20362c20362c20372c20362c20372c20372c2038,
  0x5d,
  0x0,
  0x6465662067657444656c746146726f6d50726f70732870726f70733a20696e7429202d3e20696e743a,
  0x2020202072657475726e2061726974686d6574696353686966742870726f70732c2055434153455f50524f50535f424954532c2055434153455f44454c54415f4249545329,
  0x0,
  0x646566206765745479706546726f6d50726f70732870726f70733a20696e7429202d3e20696e743a,
  0x2020202072657475726e2070726f707320262055434153455f545950455f4d41534b,
  0x0,
  0x6465662067657454797065416e6449676e6f7261626c6546726f6d50726f70732870726f70733a20696e7429202d3e20696e743a,
  0x2020202072657475726e2070726f70732026202855434153455f545950455f4d41534b207c2055434153455f49474e4f5241424c4529,
  0x0,
  0x64656620697355707065724f725469746c652870726f70733a20696e7429202d3e20626f6f6c3a,
  0x2020202072657475726e202870726f70732026202855434153455f555050455220262055434153455f5449544c45292920213d2030,
  0x0,
  0x64656620686173457863657074696f6e2870726f70733a20696e7429202d3e20626f6f6c3a,
  0x2020202072657475726e202870726f707320262055434153455f455843455054494f4e2920213d2030,
  0x0,
  0x64656620686173536c6f7428666c6167733a20696e742c20696e6465783a20696e7429202d3e20626f6f6c3a,
  0x2020202072657475726e2028666c6167732026202831203c3c20696e646578292920213d2030,
  0x0,
  0x64656620736c6f744f666673657428666c6167733a20696e742c20696e6465783a20696e7429202d3e20696e743a,
  0x2020202072657475726e20666c6167734f66667365745b666c616773202620282831203c3c20696e64657829202d2031295d,
  0x0,
  0x64656620676574536c6f7456616c756528657863576f72643a20696e742c20696e6465783a20696e742c20657863657074696f6e496e6465783a20696e7429202d3e207475706c655b696e742c20696e745d3a,
  0x20202020736c6f745f6f6666736574203d20736c6f744f666673657428657863576f72642c20696e64657829,
  0x2020202069662028657863576f726420262055434153455f4558435f444f55424c455f534c4f545329203d3d20303a,
  0x2020202020202020657863657074696f6e496e646578202b3d20736c6f745f6f6666736574,
  0x202020202020202072657475726e202875636173655f70726f70735f657863657074696f6e735b657863657074696f6e496e6465785d2c20736c6f745f6f666673657429,
  0x0,
  0x20202020657863657074696f6e496e646578202b3d2032202a20736c6f745f6f6666736574,
  0x2020202072657475726e20282875636173655f70726f70735f657863657074696f6e735b657863657074696f6e496e6465785d29203c3c203136207c2075636173655f70726f70735f657863657074696f6e735b657863657074696f6e496e6465782b315d2c202832202a20736c6f745f6f666673657429202b203129,
  0x0,
  0x64656620746f4c6f77657228633a20696e7429202d3e20696e743a,
  0x2020202070726f7073203d206361736550726f7073547269652e676574286329,
  0x0,
  0x202020206966206e6f7420686173457863657074696f6e2870726f7073293a,
  0x2020202020202020696620697355707065724f725469746c652870726f7073293a,
  0x20202020202020202020202063202b3d2067657444656c746146726f6d50726f70732870726f707329,
  0x20202020656c73653a,
  0x2020202020202020232068616e646c6520657863657074696f6e73,
  0x2020202020202020657863657074696f6e496e646578203d2070726f7073203e3e2055434153455f4558435f5348494654,
  0x2020202020202020657863576f7264203d2075636173655f70726f70735f657863657074696f6e735b657863657074696f6e496e6465785d,
  0x2020202020202020657863657074696f6e496e646578202b3d2031,
  0x2020202020202020696620686173536c6f7428657863576f72642c2055434153455f4558435f44454c54412920616e6420697355707065724f725469746c652870726f7073293a,
  0x2020202020202020202020202864656c74612c205f29203d20676574536c6f7456616c756528657863576f72642c2055434153455f4558435f44454c54412c20657863657074696f6e496e64657829,
  0x20202020202020202020202072657475726e2063202b2064656c74612069662028657863576f726420262055434153455f4558435f44454c54415f49535f4e4547415449564529203d3d203020656c73652063202d2064656c7461,
  0x0,
  0x2020202020202020696620686173536c6f7428657863576f72642c2055434153455f4558435f4c4f574552293a,
  0x20202020202020202020202028632c205f29203d20676574536c6f7456616c756528657863576f72642c2055434153455f4558435f4c4f5745522c20657863657074696f6e496e64657829,
  0x0,
  0x2020202072657475726e2063,
  0x0,
  0x64656620746f557070657228633a20696e7429202d3e20696e743a,
  0x2020202070726f7073203d206361736550726f7073547269652e676574286329,
  0x0,
  0x202020206966206e6f7420686173457863657074696f6e2870726f7073293a,
  0x20202020202020206966206765745479706546726f6d50726f70732870726f707329203d3d2055434153455f4c4f5745523a,
  0x20202020202020202020202063202b3d2067657444656c746146726f6d50726f70732870726f707329,
  0x20202020656c73653a,
  0x2020202020202020657863657074696f6e496e646578203d2070726f7073203e3e2055434153455f4558435f5348494654,
  0x2020202020202020657863576f7264203d2075636173655f70726f70735f657863657074696f6e735b657863657074696f6e496e6465785d,
  0x2020202020202020657863657074696f6e496e646578202b3d2031,
  0x2020202020202020696620686173536c6f7428657863576f72642c2055434153455f4558435f44454c54412920616e64206765745479706546726f6d50726f70732870726f707329203d3d2055434153455f4c4f5745523a,
  0x2020202020202020202020202864656c74612c205f29203d20676574536c6f7456616c756528657863576f72642c2055434153455f4558435f44454c54412c20657863657074696f6e496e64657829,
  0x20202020202020202020202072657475726e2063202b2064656c74612069662028657863576f726420262055434153455f4558435f44454c54415f49535f4e4547415449564529203d3d203020656c73652063202d2064656c7461,
  0x0,
  0x2020202020202020696620686173536c6f7428657863576f72642c2055434153455f4558435f5550504552293a,
  0x20202020202020202020202028632c205f29203d20676574536c6f7456616c756528657863576f72642c2055434153455f4558435f55505045522c20657863657074696f6e496e64657829,
  0x0,
  0x2020202072657475726e2063,
  0x0,
  0x64656620746f5469746c6528633a20696e7429202d3e20696e743a,
  0x2020202070726f7073203d206361736550726f7073547269652e676574286329,
  0x0,
  0x202020206966206e6f7420686173457863657074696f6e2870726f7073293a,
  0x20202020202020206966206765745479706546726f6d50726f70732870726f707329203d3d2055434153455f4c4f5745523a,
  0x20202020202020202020202063202b3d2067657444656c746146726f6d50726f70732870726f707329,
  0x20202020656c73653a,
  0x2020202020202020657863657074696f6e496e646578203d2070726f7073203e3e2055434153455f4558435f5348494654,
  0x2020202020202020657863576f7264203d2075636173655f70726f70735f657863657074696f6e735b657863657074696f6e496e6465785d,
  0x2020202020202020657863657074696f6e496e646578202b3d2031,
  0x2020202020202020696620686173536c6f7428657863576f72642c2055434153455f4558435f44454c54412920616e64206765745479706546726f6d50726f70732870726f707329203d3d2055434153455f4c4f5745523a,
  0x2020202020202020202020202864656c74612c205f29203d20676574536c6f7456616c756528657863576f72642c2055434153455f4558435f44454c54412c20657863657074696f6e496e64657829,
  0x20202020202020202020202072657475726e2063202b2064656c74612069662028657863576f726420262055434153455f4558435f44454c54415f49535f4e4547415449564529203d3d203020656c73652063202d2064656c7461,
  0x0,
  0x2020202020202020666f7220736c6f7420696e205b55434153455f4558435f5449544c452c2055434153455f4558435f55505045525d3a,
  0x202020202020202020202020696620686173536c6f7428657863576f72642c20736c6f74293a,
  0x2020202020202020202020202020202072657475726e20676574536c6f7456616c756528657863576f72642c20736c6f742c20657863657074696f6e496e646578295b305d,
  0x0,
  0x2020202072657475726e2063,
  0x0,
  0x23206c6f63616c653f,
  0x64656620746f46756c6c4c6f77657228633a20696e7429202d3e207374723a,
  0x20202020726573756c74203d20636872286329,
  0x2020202070726f7073203d206361736550726f7073547269652e676574286329,
  0x0,
  0x202020206966206e6f7420686173457863657074696f6e2870726f7073293a,
  0x2020202020202020696620697355707065724f725469746c652870726f7073293a,
  0x20202020202020202020202072657475726e206368722863202b2067657444656c746146726f6d50726f70732870726f70732929,
  0x20202020656c73653a,
  0x2020202020202020657863657074696f6e496e646578203d2070726f7073203e3e2055434153455f4558435f5348494654,
  0x2020202020202020657863576f7264203d2075636173655f70726f70735f657863657074696f6e735b657863657074696f6e496e6465785d,
  0x2020202020202020657863657074696f6e496e646578202b3d2031,
  0x2020202020202020657863657074696f6e496e64657832203d20657863657074696f6e496e646578,
  0x0,
  0x202020202020202069662028657863576f726420262055434153455f4558435f434f4e444954494f4e414c5f5350454349414c2920213d20303a,
  0x202020202020202020202020232074686973206973207765726520746f2068616e646c65206c6f63616c6520657863657074696f6e73,
  0x20202020202020202020202069662063203d3d203078303133303a202023205570706572206361736520646f747465642049,
  0x2020202020202020202020202020202072657475726e2022695c753033303722,
  0x2020202020202020656c696620686173536c6f7428657863576f72642c2055434153455f4558435f46554c4c5f4d415050494e4753293a,
  0x2020202020202020202020202866756c6c2c206f666673657429203d20676574536c6f7456616c756528657863576f72642c2055434153455f4558435f46554c4c5f4d415050494e47532c20657863657074696f6e496e64657829,
  0x20202020202020202020202066756c6c20263d2055434153455f46554c4c5f4c4f574552,
  0x20202020202020202020202069662066756c6c20213d20303a,
  0x2020202020202020202020202020202063686172733a206c6973745b7374725d203d205b5d,
  0x20202020202020202020202020202020657863657074696f6e496e646578202b3d206f6666736574202b2031,
  0x20202020202020202020202020202020666f72206920696e2072616e67652866756c6c293a,
  0x202020202020202020202020202020202020202063686172732e617070656e64286368722875636173655f70726f70735f657863657074696f6e735b657863657074696f6e496e646578202b20695d2929,
  0x0,
  0x2020202020202020202020202020202072657475726e2022222e6a6f696e28636861727329,
  0x0,
  0x2020202020202020696620686173536c6f7428657863576f72642c2055434153455f4558435f44454c54412920616e6420697355707065724f725469746c652870726f7073293a,
  0x2020202020202020202020202864656c74612c205f29203d20676574536c6f7456616c756528657863576f72642c2055434153455f4558435f44454c54412c20657863657074696f6e496e6465783229,
  0x20202020202020202020202072657475726e206368722863202b2064656c74612069662028657863576f726420262055434153455f4558435f44454c54415f49535f4e4547415449564529203d3d203020656c73652063202d2064656c746129,
  0x0,
  0x2020202020202020696620686173536c6f7428657863576f72642c2055434153455f4558435f4c4f574552293a,
  0x2020202020202020202020202863682c205f29203d20676574536c6f7456616c756528657863576f72642c2055434153455f4558435f4c4f5745522c20657863657074696f6e496e6465783229,
  0x20202020202020202020202072657475726e2063687228636829,
  0x0,
  0x2020202072657475726e20726573756c74,
  0x0,
  0x23206c6f63616c653f,
  0x64656620746f55707065724f725469746c6528633a20696e742c2075707065724e6f745469746c653a20626f6f6c29202d3e207374723a,
  0x20202020726573756c74203d20636872286329,
  0x2020202070726f7073203d206361736550726f7073547269652e676574286329,
  0x0,
  0x202020206966206e6f7420686173457863657074696f6e2870726f7073293a,
  0x20202020202020206966206765745479706546726f6d50726f70732870726f707329203d3d2055434153455f4c4f5745523a,
  0x202020202020202020202020726573756c74203d206368722863202b2067657444656c746146726f6d50726f70732870726f70732929,
  0x20202020656c73653a,
  0x2020202020202020657863657074696f6e496e646578203d2070726f7073203e3e2055434153455f4558435f5348494654,
  0x2020202020202020657863576f7264203d2075636173655f70726f70735f657863657074696f6e735b657863657074696f6e496e6465785d,
  0x2020202020202020657863657074696f6e496e646578202b3d2031,
  0x2020202020202020657863657074696f6e496e64657832203d20657863657074696f6e496e646578,
  0x0,
  0x202020202020202069662028657863576f726420262055434153455f4558435f434f4e444954494f4e414c5f5350454349414c2920213d20303a,
  0x20202020202020202020202023207468697320697320776865726520746f2068616e646c65206c6f63616c6520657863657074696f6e732e2e2e,
  0x20202020202020202020202069662063203d3d203078303538373a,
  0x202020202020202020202020202020202320536565204943552d31333431363a,
  0x202020202020202020202020202020202320d687206c69676174757265206563682d7969776e,
  0x2020202020202020202020202020202023207570706572636173657320746f20d4b5d5923d6563682b7969776e2062792064656661756c7420616e6420696e205765737465726e2041726d656e69616e2c,
  0x20202020202020202020202020202020232062757420746f20d4b5d58e3d6563682b76657720696e204561737465726e2041726d656e69616e2e,
  0x2020202020202020202020202020202072657475726e2022d4b5d592222069662075707065724e6f745469746c6520656c73652022d4b5d68222,
  0x0,
  0x2020202020202020656c696620686173536c6f7428657863576f72642c2055434153455f4558435f46554c4c5f4d415050494e4753293a,
  0x2020202020202020202020202866756c6c2c206f666673657429203d20676574536c6f7456616c756528657863576f72642c2055434153455f4558435f46554c4c5f4d415050494e47532c20657863657074696f6e496e64657829,
  0x202020202020202020202020657863657074696f6e496e646578202b3d206f6666736574202b2031202b202866756c6c20262055434153455f46554c4c5f4c4f57455229,
  0x20202020202020202020202066756c6c203e3e3d2034,
  0x202020202020202020202020657863657074696f6e496e646578202b3d2066756c6c202620307846,
  0x20202020202020202020202066756c6c203e3e3d2034,
  0x0,
  0x20202020202020202020202069662075707065724e6f745469746c653a,
  0x2020202020202020202020202020202066756c6c20263d20307846,
  0x202020202020202020202020656c73653a,
  0x20202020202020202020202020202020657863657074696f6e496e646578202b3d2066756c6c2026307846,
  0x2020202020202020202020202020202066756c6c203d202866756c6c203e3e203429202620307846,
  0x0,
  0x20202020202020202020202069662066756c6c20213d20303a,
  0x2020202020202020202020202020202063686172733a206c6973745b7374725d203d205b5d,
  0x20202020202020202020202020202020666f72206920696e2072616e67652866756c6c293a,
  0x202020202020202020202020202020202020202063686172732e617070656e64286368722875636173655f70726f70735f657863657074696f6e735b657863657074696f6e496e646578202b20695d2929,
  0x0,
  0x2020202020202020202020202020202072657475726e2022222e6a6f696e28636861727329,
  0x0,
  0x2020202020202020696620686173536c6f7428657863576f72642c2055434153455f4558435f44454c54412920616e64206765745479706546726f6d50726f70732870726f707329203d3d2055434153455f4c4f5745523a,
  0x2020202020202020202020202864656c74612c205f29203d20676574536c6f7456616c756528657863576f72642c2055434153455f4558435f44454c54412c20657863657074696f6e496e6465783229,
  0x20202020202020202020202072657475726e206368722863202b2064656c74612069662028657863576f726420262055434153455f4558435f44454c54415f49535f4e4547415449564529203d3d203020656c73652063202d2064656c746129,
  0x0,
  0x2020202020202020696620286e6f742075707065724e6f745469746c652920616e6420686173536c6f7428657863576f72642c2055434153455f4558435f5449544c45293a,
  0x202020202020202020202020696478203d2055434153455f4558435f5449544c45,
  0x2020202020202020656c696620686173536c6f7428657863576f72642c2055434153455f4558435f5550504552293a,
  0x202020202020202020202020696478203d2055434153455f4558435f5550504552,
  0x2020202020202020656c73653a,
  0x20202020202020202020202072657475726e20726573756c74,
  0x0,
  0x20202020202020202863682c205f29203d20676574536c6f7456616c756528657863576f72642c206964782c20657863657074696f6e496e6465783229,
  0x202020202020202072657475726e2063687228636829,
  0x0,
  0x2020202072657475726e20726573756c74,
  0x0,
  0x64656620746f46756c6c557070657228633a20696e7429202d3e207374723a,
  0x2020202072657475726e20746f55707065724f725469746c6528632c205472756529,
  0x0,
  0x64656620746f46756c6c5469746c6528633a20696e7429202d3e207374723a,
  0x2020202072657475726e20746f55707065724f725469746c6528632c2046616c736529,
  0x0,
  0x6361736550726f707354726965203d205554726965322875636173655f70726f70735f74726965496e6465782c2075636173655f70726f70735f747269655f696e6465785f6c656e6774682c2075636173655f70726f70735f747269655f696e6465785f325f6e756c6c5f6f66667365742c205c,
  0x202020202020202020202020202020202020202020202075636173655f70726f70735f747269655f646174615f6e756c6c5f6f66667365742c2075636173655f70726f70735f747269655f686967685f73746172742c2075636173655f70726f70735f747269655f686967685f76616c75655f696e64657829,
  0x0]

/-- UnicodeData/CPTrie.py:1-351 the lines of the file. -/
def CPTrie : List Nat :=
 [0x2222225c,
  0x4261736564206f6e20756370747269652e6370702066726f6d20494355,
  0x0,
  0x43726561746564206f6e204d61792031342c2032303230,
  0x0,
  0x40617574686f722045726963204d61646572,
  0x222222,
  0x0,
  0x696d706f727420747970696e67,
  0x0,
  0x696d706f727420737472756374,
  0x66726f6d20666f6e74546f6f6c732e6d69736320696d706f72742073737472756374,
  0x0,
  0x554350545249455f534947203d203078353437323639333320202320225472693322,
  0x0,
  0x554350545249455f464153545f5348494654203d2036,
  0x0,
  0x23204e756d626572206f6620656e747269657320696e2061206461746120626c6f636b20666f7220636f646520706f696e74732062656c6f77207468652066617374206c696d69742e2036343d307834302040696e7465726e616c,
  0x554350545249455f464153545f444154415f424c4f434b5f4c454e475448203d2031203c3c20554350545249455f464153545f5348494654,
  0x0,
  0x23204d61736b20666f722067657474696e6720746865206c6f776572206269747320666f722074686520696e2d666173742d646174612d626c6f636b206f66667365742e2040696e7465726e616c,
  0x554350545249455f464153545f444154415f4d41534b203d20554350545249455f464153545f444154415f424c4f434b5f4c454e475448202d2031,
  0x0,
  0x232040696e7465726e616c,
  0x554350545249455f534d414c4c5f4d4158203d203078666666,
  0x0,
  0x23204f66667365742066726f6d20646174614c656e6774682028746f20626520737562747261637465642920666f72206665746368696e6720746865,
  0x232076616c75652072657475726e656420666f72206f75742d6f662d72616e676520636f646520706f696e747320616e6420696c6c2d666f726d6564205554462d382f31362e,
  0x232040696e7465726e616c,
  0x0,
  0x554350545249455f4552524f525f56414c55455f4e45475f444154415f4f4646534554203d2031,
  0x0,
  0x23204f66667365742066726f6d20646174614c656e6774682028746f20626520737562747261637465642920666f72206665746368696e6720746865,
  0x232076616c75652072657475726e656420666f7220636f646520706f696e7473206869676853746172742e2e552b3130464646462e,
  0x232040696e7465726e616c,
  0x0,
  0x554350545249455f484947485f56414c55455f4e45475f444154415f4f4646534554203d2032,
  0x0,
  0x2320546865206c656e677468206f662074686520424d5020696e646578207461626c652e20313032343d3078343030,
  0x554350545249455f424d505f494e4445585f4c454e475448203d2030783130303030203e3e20554350545249455f464153545f5348494654,
  0x0,
  0x554350545249455f534d414c4c5f4c494d4954203d20307831303030,
  0x554350545249455f534d414c4c5f494e4445585f4c454e475448203d20554350545249455f534d414c4c5f4c494d4954203e3e20554350545249455f464153545f5348494654,
  0x0,
  0x232053686966742073697a6520666f722067657474696e672074686520696e6465782d33207461626c65206f66667365742e,
  0x554350545249455f53484946545f33203d2034,
  0x0,
  0x232053686966742073697a6520666f722067657474696e672074686520696e6465782d32207461626c65206f66667365742e,
  0x554350545249455f53484946545f32203d2035202b20554350545249455f53484946545f33,
  0x0,
  0x232053686966742073697a6520666f722067657474696e672074686520696e6465782d31207461626c65206f66667365742e,
  0x554350545249455f53484946545f31203d2035202b20554350545249455f53484946545f32,
  0x0,
  0x2320446966666572656e6365206265747765656e2074776f2073686966742073697a65732c,
  0x2320666f722067657474696e6720616e20696e6465782d32206f66667365742066726f6d20616e20696e6465782d33206f66667365742e20353d392d34,
  0x0,
  0x554350545249455f53484946545f325f33203d20554350545249455f53484946545f32202d20554350545249455f53484946545f33,
  0x0,
  0x2320446966666572656e6365206265747765656e2074776f2073686966742073697a65732c,
  0x2320666f722067657474696e6720616e20696e6465782d31206f66667365742066726f6d20616e20696e6465782d32206f66667365742e20353d31342d39,
  0x0,
  0x554350545249455f53484946545f315f32203d20554350545249455f53484946545f31202d20554350545249455f53484946545f32,
  0x0,
  0x23204e756d626572206f6620696e6465782d3120656e747269657320666f722074686520424d502e20283429,
  0x2320546869732070617274206f662074686520696e6465782d31207461626c65206973206f6d69747465642066726f6d207468652073657269616c697a656420666f726d2e,
  0x0,
  0x554350545249455f4f4d49545445445f424d505f494e4445585f315f4c454e475448203d2030783130303030203e3e20554350545249455f53484946545f31,
  0x0,
  0x23204e756d626572206f6620656e747269657320696e20616e20696e6465782d3220626c6f636b2e2033323d30783230,
  0x554350545249455f494e4445585f325f424c4f434b5f4c454e475448203d2031203c3c20554350545249455f53484946545f315f32,
  0x0,
  0x23204d61736b20666f722067657474696e6720746865206c6f776572206269747320666f722074686520696e2d696e6465782d322d626c6f636b206f66667365742e,
  0x554350545249455f494e4445585f325f4d41534b203d20554350545249455f494e4445585f325f424c4f434b5f4c454e475448202d2031,
  0x0,
  0x23204e756d626572206f6620636f646520706f696e74732070657220696e6465782d32207461626c6520656e7472792e203531323d3078323030,
  0x554350545249455f43505f5045525f494e4445585f325f454e545259203d2031203c3c20554350545249455f53484946545f32,
  0x0,
  0x23204e756d626572206f6620656e747269657320696e20616e20696e6465782d3320626c6f636b2e2033323d30783230,
  0x554350545249455f494e4445585f335f424c4f434b5f4c454e475448203d2031203c3c20554350545249455f53484946545f325f33,
  0x0,
  0x23204d61736b20666f722067657474696e6720746865206c6f776572206269747320666f722074686520696e2d696e6465782d332d626c6f636b206f66667365742e,
  0x554350545249455f494e4445585f335f4d41534b203d20554350545249455f494e4445585f335f424c4f434b5f4c454e475448202d2031,
  0x0,
  0x23204e756d626572206f6620656e747269657320696e206120736d616c6c206461746120626c6f636b2e2031363d30783130,
  0x554350545249455f534d414c4c5f444154415f424c4f434b5f4c454e475448203d2031203c3c20554350545249455f53484946545f33,
  0x0,
  0x23204d61736b20666f722067657474696e6720746865206c6f776572206269747320666f722074686520696e2d736d616c6c2d646174612d626c6f636b206f66667365742e,
  0x554350545249455f534d414c4c5f444154415f4d41534b203d20554350545249455f534d414c4c5f444154415f424c4f434b5f4c454e475448202d2031,
  0x0,
  0x554350545249455f545950455f414e59203d202d31,
  0x554350545249455f545950455f46415354203d203020202320466173742f73696d706c652f6c617267657220424d502064617461207374727563747572652e205573652066756e6374696f6e7320616e6420226661737422206d6163726f732e,
  0x554350545249455f545950455f534d414c4c203d203120202320536d616c6c2f736c6f77657220424d502064617461207374727563747572652e205573652066756e6374696f6e7320616e642022736d616c6c22206d6163726f732e,
  0x0,
  0x554350545249455f56414c55455f424954535f414e59203d202d31,
  0x554350545249455f56414c55455f424954535f3136203d20302020232054686520747269652073746f72657320313620626974732070657220646174612076616c75652e,
  0x554350545249455f56414c55455f424954535f3332203d20312020232054686520747269652073746f72657320333220626974732070657220646174612076616c75652e,
  0x554350545249455f56414c55455f424954535f38203d20322020232054686520747269652073746f726573203820626974732070657220646174612076616c75652e,
  0x0,
  0x554350545249455f4f5054494f4e535f444154415f4c454e4754485f4d41534b203d20307866303030,
  0x554350545249455f4f5054494f4e535f444154415f4e554c4c5f4f46465345545f4d41534b203d203078663030,
  0x554350545249455f4f5054494f4e535f52455345525645445f4d41534b203d2030783338,
  0x554350545249455f4f5054494f4e535f56414c55455f424954535f4d41534b203d2037,
  0x0,
  0x232056616c756520666f7220696e646578334e756c6c4f666673657420776869636820696e646963617465732074686174207468657265206973206e6f20696e6465782d33206e756c6c20626c6f636b2e,
  0x232042697420313520697320756e7573656420666f7220746869732076616c7565206265636175736520746869732062697420697320757365642069662074686520696e6465782d3320636f6e7461696e73,
  0x232031382d62697420696e64657865732e,
  0x554350545249455f4e4f5f494e444558335f4e554c4c5f4f4646534554203d20307837666666,
  0x554350545249455f4e4f5f444154415f4e554c4c5f4f4646534554203d2030786666666666,
  0x0,
  0x636c61737320547269654865616465723a,
  0x20202020646566205f5f696e69745f5f2873656c6629202d3e204e6f6e653a,
  0x202020202020202073656c662e736967203d2030,
  0x202020202020202073656c662e6f7074696f6e73203d2030,
  0x202020202020202073656c662e696e6465784c656e677468203d2030,
  0x202020202020202073656c662e646174614c656e677468203d2030,
  0x202020202020202073656c662e696e646578334e756c6c4f6666736574203d2030,
  0x202020202020202073656c662e646174614e756c6c4f6666736574203d2030,
  0x202020202020202073656c662e73686966746564486967685374617274203d2030,
  0x0,
  0x636c61737320435054726965286f626a656374293a,
  0x202020205f74726965486561646572466f726d6174203d20222222,
  0x20202020232022547269332220696e206269672d656e6469616e2055532d415343494920283078353437323639333329,
  0x202020207369673a2049,
  0x20202020,
  0x2020202023204f7074696f6e7320626974206669656c643a,
  0x202020202320426974732031352e2e31323a2044617461206c656e67746820626974732031392e2e31362e,
  0x202020202320426974732031312e2e383a2044617461206e756c6c20626c6f636b206f666673657420626974732031392e2e31362e,
  0x2020202023204269747320372e2e363a205543505472696554797065,
  0x2020202023204269747320352e2e333a205265736572766564202830292e,
  0x2020202023204269747320322e2e303a205543505472696556616c75655769647468,
  0x202020206f7074696f6e733a2048,
  0x20202020,
  0x202020202320546f74616c206c656e677468206f662074686520696e646578207461626c65732e,
  0x20202020696e6465784c656e6774683a2048,
  0x20202020,
  0x20202020232044617461206c656e67746820626974732031352e2e302e,
  0x20202020646174614c656e6774683a2048,
  0x20202020,
  0x202020202320496e6465782d33206e756c6c20626c6f636b206f66667365742c20307837666666206f7220307866666666206966206e6f6e652e,
  0x20202020696e646578334e756c6c4f66667365743a2048,
  0x20202020,
  0x20202020232044617461206e756c6c20626c6f636b206f666673657420626974732031352e2e302c2030786666666666206966206e6f6e652e20,
  0x20202020646174614e756c6c4f66667365743a2048,
  0x20202020,
  0x202020202320466972737420636f646520706f696e74206f66207468652073696e676c652d76616c75652072616e676520656e64696e67207769746820552b3130666666662c,
  0x202020202320726f756e64656420757020616e64207468656e207368696674656420726967687420627920554350545249455f53484946545f322e,
  0x20202020736869667465644869676853746172743a2048,
  0x20202020222222,
  0x202020205f747269654865616465724c656e677468203d20737374727563742e63616c6373697a65285f74726965486561646572466f726d617429,
  0x0,
  0x20202020646566205f5f696e69745f5f2873656c662c20696e6465783a20747970696e672e53657175656e63655b696e745d2c20646174613a20747970696e672e53657175656e63655b696e745d2c2074726965547970653a20696e742c2076616c756557696474683a20696e742c20696e646578334e756c6c4f66667365743a20696e742c20646174614e756c6c4f66667365743a20696e742c206869676853746172743a20696e742c207368696674656431324869676853746172743a20696e74293a,
  0x202020202020202073656c662e7472696554797065203d207472696554797065,
  0x202020202020202073656c662e76616c75655769647468203d2076616c75655769647468,
  0x202020202020202073656c662e696e6465784c656e677468203d20696e6465785b305d,
  0x202020202020202073656c662e646174614c656e677468203d206c656e286461746129,
  0x202020202020202073656c662e696e646578334e756c6c4f6666736574203d20696e646578334e756c6c4f6666736574,
  0x202020202020202073656c662e646174614e756c6c4f6666736574203d20646174614e756c6c4f6666736574,
  0x202020202020202073656c662e686967685374617274203d20686967685374617274,
  0x202020202020202073656c662e736869667465643132486967685374617274203d20736869667465643132486967685374617274,
  0x202020202020202073656c662e696e646578203d20696e646578,
  0x202020202020202073656c662e64617461203d2064617461,
  0x0,
  0x2020202040636c6173736d6574686f64,
  0x202020206465662063726561746546726f6d4461746128636c732c2074726965446174613a206279746573293a,
  0x20202020202020207468203d20737374727563742e756e7061636b28636c732e5f74726965486561646572466f726d61742c2074726965446174615b3a636c732e5f747269654865616465724c656e6774685d2c2054726965486561646572282929,
  0x0,
  0x202020202020202074726965486561646572203d20747970696e672e6361737428547269654865616465722c20746829,
  0x20202020202020207472696554797065203d2028747269654865616465722e6f7074696f6e73203e3e203629202620332020232054686572652073686f756c6420626520636f6e7374616e747320666f72207468657365206e756d626572732e2e2e,
  0x202020202020202076616c75655769647468203d20747269654865616465722e6f7074696f6e73202620554350545249455f4f5054494f4e535f56414c55455f424954535f4d41534b,
  0x2020202020202020696e6465784c656e677468203d20747269654865616465722e696e6465784c656e677468,
  0x2020202020202020646174614c656e677468203d202828747269654865616465722e6f7074696f6e73202620554350545249455f4f5054494f4e535f444154415f4c454e4754485f4d41534b29203c3c203429207c20747269654865616465722e646174614c656e677468,
  0x2020202020202020696e646578334e756c6c4f6666736574203d20747269654865616465722e696e646578334e756c6c4f6666736574,
  0x2020202020202020646174614e756c6c4f6666736574203d202828747269654865616465722e6f7074696f6e73202620554350545249455f4f5054494f4e535f444154415f4e554c4c5f4f46465345545f4d41534b29203c3c203829207c20747269654865616465722e646174614e756c6c4f6666736574,
  0x2020202020202020686967685374617274203d20747269654865616465722e73686966746564486967685374617274203c3c20554350545249455f53484946545f32,
  0x2020202020202020736869667465643132486967685374617274203d2028686967685374617274202b20307866666629203e3e203132,
  0x0,
  0x2020202020202020696e646578466f726d6174203d2066227b696e6465784c656e6774687d4822,
  0x2020202020202020696e6465785374617274203d20636c732e5f747269654865616465724c656e677468,
  0x2020202020202020696e6465784c696d6974203d20696e6465785374617274202b207374727563742e63616c6373697a6528696e646578466f726d617429,
  0x2020202020202020696e646578203d207374727563742e756e7061636b28696e646578466f726d61742c2074726965446174615b696e64657853746172743a696e6465784c696d69745d29,
  0x0,
  0x2020202020202020646174615374617274203d20696e6465784c696d6974,
  0x0,
  0x202020202020202069662076616c75655769647468203d3d20554350545249455f56414c55455f424954535f31363a,
  0x2020202020202020202020206461746154797065203d20224822,
  0x2020202020202020656c69662076616c75655769647468203d3d20554350545249455f56414c55455f424954535f33323a,
  0x2020202020202020202020206461746154797065203d20224922,
  0x2020202020202020656c73653a,
  0x2020202020202020202020206461746154797065203d20224222,
  0x0,
  0x202020202020202064617461466f726d6174203d2066227b646174614c656e6774687d7b64617461547970657d22,
  0x2020202020202020646174614c696d6974203d20646174615374617274202b207374727563742e63616c6373697a652864617461466f726d617429,
  0x202020202020202064617461203d207374727563742e756e7061636b2864617461466f726d61742c2074726965446174615b6461746153746172743a646174614c696d69745d29,
  0x0,
  0x202020202020202072657475726e2043505472696528696e6465782c20646174612c2074726965547970652c2076616c756557696474682c20696e646578334e756c6c4f66667365742c20646174614e756c6c4f66667365742c206869676853746172742c2073686966746564313248696768537461727429,
  0x0,
  0x202020206465662066617374496e6465782873656c662c20633a20696e7429202d3e20696e743a,
  0x202020202020202072657475726e2073656c662e696e6465785b63203e3e20554350545249455f464153545f53484946545d202b202863202620554350545249455f464153545f444154415f4d41534b29,
  0x0,
  0x2020202064656620696e7465726e616c536d616c6c496e6465782873656c662c20633a20696e7429202d3e20696e743a,
  0x20202020202020206931203d2063203e3e20554350545249455f53484946545f31,
  0x0,
  0x202020202020202069662073656c662e7472696554797065203d3d20554350545249455f545950455f464153543a,
  0x2020202020202020202020206931202b3d20554350545249455f424d505f494e4445585f4c454e475448202d20554350545249455f4f4d49545445445f424d505f494e4445585f315f4c454e475448,
  0x2020202020202020656c73653a,
  0x2020202020202020202020206931202b3d20554350545249455f534d414c4c5f494e4445585f4c454e475448,
  0x0,
  0x20202020202020206933426c6f636b203d2073656c662e696e6465785b73656c662e696e6465785b69315d202b20282863203e3e20554350545249455f53484946545f3229202620554350545249455f494e4445585f325f4d41534b295d,
  0x20202020202020206933203d202863203e3e20554350545249455f53484946545f3329202620554350545249455f494e4445585f335f4d41534b,
  0x0,
  0x2020202020202020696620286933426c6f636b20262030783830303029203d3d20303a,
  0x202020202020202020202020232031362d62697420696e6465786573,
  0x20202020202020202020202064617461426c6f636b203d2073656c662e696e6465785b6933426c6f636b202b2069335d,
  0x2020202020202020656c73653a,
  0x202020202020202020202020232031382d62697420696e64657865732073746f72656420696e2067726f757073206f66203920656e747269657320706572203820696e64657865732e,
  0x2020202020202020202020206933426c6f636b203d20286933426c6f636b20262030783766666629202b202869332026207e3729202b20286933203e3e203329,
  0x202020202020202020202020693320263d2037,
  0x20202020202020202020202064617461426c6f636b203d202873656c662e696e6465785b6933426c6f636b5d203c3c202832202b202832202a20693329292920262030783330303030,
  0x20202020202020202020202064617461426c6f636b207c3d2073656c662e696e6465785b6933426c6f636b202b2031202b2069335d,
  0x0,
  0x202020202020202072657475726e2064617461426c6f636b202b202863202620554350545249455f534d414c4c5f444154415f4d41534b29,
  0x0,
  0x2020202064656620736d616c6c496e6465782873656c662c20633a20696e7429202d3e20696e743a,
  0x202020202020202069662063203e3d2073656c662e6869676853746172743a,
  0x20202020202020202020202072657475726e2073656c662e646174614c656e677468202d20554350545249455f484947485f56414c55455f4e45475f444154415f4f4646534554,
  0x202020202020202072657475726e2073656c662e696e7465726e616c536d616c6c496e646578286329,
  0x0,
  0x20202020646566206370496e6465782873656c662c20666173744d61783a20696e742c20633a20696e7429202d3e20696e743a,
  0x202020202020202069662063203c3d20666173744d61783a,
  0x20202020202020202020202072657475726e2073656c662e66617374496e646578286329,
  0x0,
  0x202020202020202069662063203c3d2030783130464646463a,
  0x20202020202020202020202072657475726e2073656c662e736d616c6c496e646578286329,
  0x0,
  0x202020202020202072657475726e2073656c662e646174614c656e677468202d20554350545249455f4552524f525f56414c55455f4e45475f444154415f4f4646534554,
  0x0,
  0x20202020646566206765742873656c662c20633a20696e7429202d3e20696e743a,
  0x202020202020202069662063203c3d203078303037463a,
  0x20202020202020202020202064617461496e646578203d2063,
  0x2020202020202020656c73653a,
  0x202020202020202020202020666173744d6178203d203078464646462069662073656c662e7472696554797065203d3d20554350545249455f545950455f4641535420656c736520554350545249455f534d414c4c5f4d4158,
  0x20202020202020202020202064617461496e646578203d2073656c662e6370496e64657828666173744d61782c206329,
  0x0,
  0x202020202020202072657475726e2073656c662e646174615b64617461496e6465785d,
  0x0,
  0x2020202064656620656e756d657261746f722873656c662c2073746172743a20696e74203d20302c206c696d69743a20696e74203d20307831313030303029202d3e20747970696e672e4974657261746f725b7475706c655b72616e67652c20747970696e672e416e795d5d3a,
  0x20202020202020206966207374617274203e3d203078313130303030206f72207374617274203e3d2073656c662e6869676853746172743a,
  0x20202020202020202020202072657475726e,
  0x0,
  0x2020202020202020707265764933426c6f636b203d202d31,
  0x202020202020202070726576426c6f636b203d202d31,
  0x202020202020202070726576203d207374617274,
  0x20202020202020206e756c6c56616c7565203d2073656c662e646174615b73656c662e646174614e756c6c4f66667365745d,
  0x20202020202020207072657656616c7565203d206e756c6c56616c7565202023206f7220303f,
  0x0,
  0x202020202020202063203d207374617274,
  0x20202020202020207768696c652063203c206c696d697420616e642063203c2073656c662e6869676853746172743a,
  0x20202020202020202020202069662063203c3d2030784646464620616e64202873656c662e7472696554797065203d3d20554350545249455f545950455f46415354206f722063203c3d20554350545249455f534d414c4c5f4d4158293a,
  0x202020202020202020202020202020206933426c6f636b203d2030,
  0x2020202020202020202020202020202069335374617274203d2063203e3e20554350545249455f464153545f5348494654,
  0x2020202020202020202020202020202023206933426c6f636b4c656e677468203d20554350545249455f424d505f494e4445585f4c454e4754482069662073656c662e7472696554797065203d3d20554350545249455f545950455f4641535420656c736520554350545249455f534d414c4c5f494e4445585f4c454e475448,
  0x2020202020202020202020202020202064617461426c6f636b4c656e677468203d20554350545249455f464153545f444154415f424c4f434b5f4c454e475448,
  0x202020202020202020202020656c73653a,
  0x20202020202020202020202020202020232075736520746865206d756c74692d737461676520696e646578,
  0x202020202020202020202020202020206931203d2063203e3e20554350545249455f53484946545f31,
  0x2020202020202020202020202020202069662073656c662e7472696554797065203d3d20554350545249455f545950455f464153543a,
  0x202020202020202020202020202020202020202061737365727420307846464646203c206320616e642063203c2073656c662e686967685374617274,
  0x20202020202020202020202020202020202020206931202b3d20554350545249455f424d505f494e4445585f4c454e475448202d20554350545249455f4f4d49545445445f424d505f494e4445585f315f4c454e475448,
  0x20202020202020202020202020202020656c73653a,
  0x20202020202020202020202020202020202020206173736572742063203c2073656c662e68696768537461727420616e642073656c662e686967685374617274203e20554350545249455f534d414c4c5f4c494d4954,
  0x20202020202020202020202020202020202020206931202b3d20554350545249455f534d414c4c5f494e4445585f4c454e475448,
  0x0,
  0x202020202020202020202020202020206933426c6f636b203d2073656c662e696e6465785b73656c662e696e6465785b69315d202b20282863203e3e20554350545249455f53484946545f3229202620554350545249455f494e4445585f325f4d41534b295d,
  0x202020202020202020202020202020206966206933426c6f636b203d3d20707265764933426c6f636b20616e64202863202d20737461727429203e3d20554350545249455f43505f5045525f494e4445585f325f454e5452593a,
  0x2020202020202020202020202020202020202020232054686520696e6465782d3320626c6f636b206973207468652073616d65206173207468652070726576696f7573206f6e652c20616e642066696c6c656420776974682076616c75652e,
  0x202020202020202020202020202020202020202061737365727420286320262028554350545249455f43505f5045525f494e4445585f325f454e545259202d20312929203d3d2030,
  0x202020202020202020202020202020202020202063202b3d20554350545249455f43505f5045525f494e4445585f325f454e545259,
  0x2020202020202020202020202020202020202020636f6e74696e7565,
  0x0,
  0x20202020202020202020202020202020707265764933426c6f636b203d206933426c6f636b,
  0x202020202020202020202020202020206966206933426c6f636b203d3d2073656c662e696e646578334e756c6c4f66667365743a,
  0x20202020202020202020202020202020202020202320546869732069732074686520696e6465782d33206e756c6c20626c6f636b2e,
  0x20202020202020202020202020202020202020206966206e756c6c56616c756520213d207072657656616c75653a,
  0x20202020202020202020202020202020202020202020202069662070726576203c20633a207969656c642072616e676528707265762c2063292c207072657656616c7565,
  0x20202020202020202020202020202020202020202020202070726576203d2063,
  0x2020202020202020202020202020202020202020202020207072657656616c7565203d206e756c6c56616c7565,
  0x0,
  0x202020202020202020202020202020202020202070726576426c6f636b203d2073656c662e646174614e756c6c4f6666736574,
  0x202020202020202020202020202020202020202063203d202863202b20554350545249455f43505f5045525f494e4445585f325f454e545259292026207e28554350545249455f43505f5045525f494e4445585f325f454e545259202d203129,
  0x2020202020202020202020202020202020202020636f6e74696e7565,
  0x0,
  0x2020202020202020202020202020202069335374617274203d202863203e3e20554350545249455f53484946545f3329202620554350545249455f494e4445585f335f4d41534b,
  0x2020202020202020202020202020202023206933426c6f636b4c656e677468203d20554350545249455f494e4445585f335f424c4f434b5f4c454e475448,
  0x2020202020202020202020202020202064617461426c6f636b4c656e677468203d20554350545249455f534d414c4c5f444154415f424c4f434b5f4c454e475448,
  0x0,
  0x2020202020202020202020202320456e756d6572617465206461746120626c6f636b7320666f72206f6e6520696e6465782d3320626c6f636b2e,
  0x202020202020202020202020666f7220693320696e2072616e676528693353746172742c2064617461426c6f636b4c656e677468293a,
  0x2020202020202020202020202020202069662063203e3d206c696d69743a20627265616b,
  0x20202020202020202020202020202020696620286933426c6f636b20262030783830303029203d3d20303a,
  0x2020202020202020202020202020202020202020626c6f636b203d2073656c662e696e6465785b6933426c6f636b202b2069335d,
  0x20202020202020202020202020202020656c73653a,
  0x2020202020202020202020202020202020202020232031382d62697420696e64657865732073746f72656420696e2067726f757073206f66203920656e747269657320706572203820696e64657865732e,
  0x202020202020202020202020202020202020202067726f7570203d20286933426c6f636b20262030783746464629202b202869332026207e3729202b20286933203e3e203329,
  0x20202020202020202020202020202020202020206769203d20693320262037,
  0x2020202020202020202020202020202020202020626c6f636b203d202873656c662e696e6465785b67726f75705d203c3c202832202b202832202a20676929292920262030783330303030,
  0x2020202020202020202020202020202020202020626c6f636b207c3d2073656c662e696e6465785b67726f7570202b206769202b20315d20202320432b2b20636f646520696e64657865732062792067726f75702b2b20696e2070726576696f7573206c696e65,
  0x0,
  0x20202020202020202020202020202020696620626c6f636b203d3d2070726576426c6f636b20616e64202863202d20737461727429203e3d2064617461426c6f636b4c656e6774683a,
  0x2020202020202020202020202020202020202020232054686520626c6f636b206973207468652073616d65206173207468652070726576696f7573206f6e652c20616e642066696c6c656420776974682076616c75652e,
  0x20202020202020202020202020202020202020206173736572742028632026202864617461426c6f636b4c656e677468202d20312929203d3d2030,
  0x202020202020202020202020202020202020202063202b3d2064617461426c6f636b4c656e677468,
  0x20202020202020202020202020202020656c73653a,
  0x2020202020202020202020202020202020202020646174614d61736b203d2064617461426c6f636b4c656e677468202d2031,
  0x202020202020202020202020202020202020202070726576426c6f636b203d20626c6f636b,
  0x2020202020202020202020202020202020202020696620626c6f636b203d3d2073656c662e646174614e756c6c4f66667365743a,
  0x202020202020202020202020202020202020202020202020232054686973206973207468652064617461206e756c6c20626c6f636b2e,
  0x2020202020202020202020202020202020202020202020206966206e756c6c56616c756520213d207072657656616c75653a,
  0x2020202020202020202020202020202020202020202020202020202069662070726576203c20633a207969656c642072616e676528707265762c2063292c207072657656616c7565,
  0x2020202020202020202020202020202020202020202020202020202070726576203d2063,
  0x202020202020202020202020202020202020202020202020202020207072657656616c7565203d206e756c6c56616c7565,
  0x0,
  0x20202020202020202020202020202020202020202020202063203d202863202b2064617461426c6f636b4c656e677468292026207e646174614d61736b,
  0x2020202020202020202020202020202020202020656c73653a,
  0x2020202020202020202020202020202020202020202020206469203d20626c6f636b202b202863202620646174614d61736b29,
  0x20202020202020202020202020202020202020202020202076616c7565203d2073656c662e646174615b64695d,
  0x2020202020202020202020202020202020202020202020206966207072657656616c756520213d2076616c75653a,
  0x2020202020202020202020202020202020202020202020202020202069662070726576203c20633a207969656c642072616e676528707265762c2063292c207072657656616c7565,
  0x2020202020202020202020202020202020202020202020202020202070726576203d2063,
  0x202020202020202020202020202020202020202020202020202020207072657656616c7565203d2076616c7565,
  0x0,
  0x20202020202020202020202020202020202020202020202063202b3d2031,
  0x2020202020202020202020202020202020202020202020206469202b3d2031,
  0x2020202020202020202020202020202020202020202020207768696c652063203c206c696d697420616e64202863202620646174614d61736b2920213d20303a,
  0x2020202020202020202020202020202020202020202020202020202076616c7565203d2073656c662e646174615b64695d,
  0x2020202020202020202020202020202020202020202020202020202069662076616c756520213d207072657656616c75653a,
  0x202020202020202020202020202020202020202020202020202020202020202069662070726576203c20633a207969656c642072616e676528707265762c2063292c207072657656616c7565,
  0x202020202020202020202020202020202020202020202020202020202020202070726576203d2063,
  0x20202020202020202020202020202020202020202020202020202020202020207072657656616c7565203d2076616c7565,
  0x2020202020202020202020202020202020202020202020202020202063202b3d2031,
  0x202020202020202020202020202020202020202020202020202020206469202b3d2031,
  0x0,
  0x202020202020202069662063203e206c696d69743a,
  0x20202020202020202020202063203d206c696d6974,
  0x2020202020202020656c69662063203c206c696d69743a,
  0x2020202020202020202020206469203d206c656e2873656c662e6461746129202d20554350545249455f484947485f56414c55455f4e45475f444154415f4f4646534554,
  0x2020202020202020202020206869676856616c7565203d2073656c662e646174615b64695d,
  0x2020202020202020202020206966206869676856616c756520213d207072657656616c75653a,
  0x2020202020202020202020202020202069662070726576203c20633a207969656c642072616e676528707265762c2063292c207072657656616c7565,
  0x0,
  0x2020202020202020232064656c69766572206c6173742072616e6765,
  0x202020202020202069662070726576203c20633a207969656c642072616e676528707265762c2063292c207072657656616c7565,
  0x0]

/-- UnicodeData/Normalizer2.py:1-318 the lines of the file. -/
def Normalizer2 : List Nat :=
 [0x2222225c,
  0x4261736564206f6e206e6f726d616c697a657232696d706c2e6370702c206e6f726d616c697a657232696d706c2e682066726f6d20494355,
  0x0,
  0x43726561746564206f6e204a756e6520322c2032303230,
  0x0,
  0x40617574686f722045726963204d61646572,
  0x222222,
  0x0,
  0x696d706f727420747970696e67,
  0x0,
  0x696d706f727420737472756374,
  0x66726f6d202e4e6f726d324e46434461746120696d706f7274202a,
  0x66726f6d202e4943554461746146696c6520696d706f72742049435544617461,
  0x66726f6d202e43505472696520696d706f727420435054726965,
  0x66726f6d202e5574696c697469657320696d706f72742069734c6561642c206368617246726f6d537572726f6761746573,
  0x0,
  0x23204669786564206e6f726d31362076616c7565732e,
  0x4d494e5f5945535f5945535f574954485f4343203d20307866653032,
  0x4a414d4f5f5654203d20307866653030,
  0x4d494e5f4e4f524d414c5f4d415942455f594553203d20307866633030,
  0x4a414d4f5f4c203d2032202023206f66667365743d3120686173436f6d70426f756e6461727941667465723d46414c5345,
  0x494e455254203d2031202023206f66667365743d3020686173436f6d70426f756e6461727941667465723d54525545,
  0x0,
  0x23206e6f726d313620626974203020697320636f6d702d626f756e646172792d61667465722e,
  0x4841535f434f4d505f424f554e444152595f4146544552203d2031,
  0x4f46465345545f5348494654203d2031,
  0x0,
  0x2320466f7220616c676f726974686d6963206f6e652d776179206d617070696e67732c206e6f726d3136206269747320322e2e3120696e64696361746520746865,
  0x2320746363632028302c20312c203e312920666f7220717569636b2046434320626f756e646172792d61667465722074657374732e,
  0x44454c54415f544343435f30203d2030,
  0x44454c54415f544343435f31203d2032,
  0x44454c54415f544343435f47545f31203d2034,
  0x44454c54415f544343435f4d41534b203d2036,
  0x44454c54415f5348494654203d2033,
  0x0,
  0x4d41585f44454c5441203d2030783430,
  0x0,
  0x232042797465206f6666736574732066726f6d20746865207374617274206f662074686520646174612c206166746572207468652067656e65726963206865616465722e,
  0x49585f4e4f524d5f545249455f4f4646534554203d2030,
  0x49585f45585452415f444154415f4f4646534554203d2031,
  0x49585f534d414c4c5f4643445f4f4646534554203d2032,
  0x49585f5245534552564544335f4f4646534554203d2033,
  0x49585f5245534552564544345f4f4646534554203d2034,
  0x49585f5245534552564544355f4f4646534554203d2035,
  0x49585f5245534552564544365f4f4646534554203d2036,
  0x49585f544f54414c5f53495a45203d2037,
  0x0,
  0x2320436f646520706f696e74207468726573686f6c647320666f7220717569636b20636865636b20636f6465732e,
  0x49585f4d494e5f4445434f4d505f4e4f5f4350203d2038,
  0x49585f4d494e5f434f4d505f4e4f5f4d415942455f4350203d2039,
  0x0,
  0x23204e6f726d31362076616c7565207468726573686f6c647320666f7220717569636b20636865636b20636f6d62696e6174696f6e7320616e64207479706573206f6620657874726120646174612e,
  0x0,
  0x23204d617070696e6773202620636f6d706f736974696f6e7320696e205b6d696e5965734e6f2e2e6d696e5965734e6f4d617070696e67734f6e6c795b2e,
  0x49585f4d494e5f5945535f4e4f203d203130,
  0x23204d617070696e67732061726520636f6d702d6e6f726d616c697a65642e,
  0x49585f4d494e5f4e4f5f4e4f203d203131,
  0x49585f4c494d49545f4e4f5f4e4f203d203132,
  0x49585f4d494e5f4d415942455f594553203d203133,
  0x0,
  0x23204d617070696e6773206f6e6c7920696e205b6d696e5965734e6f4d617070696e67734f6e6c792e2e6d696e4e6f4e6f5b2e,
  0x49585f4d494e5f5945535f4e4f5f4d415050494e47535f4f4e4c59203d203134,
  0x23204d617070696e677320617265206e6f7420636f6d702d6e6f726d616c697a6564206275742068617665206120636f6d7020626f756e64617279206265666f72652e,
  0x49585f4d494e5f4e4f5f4e4f5f434f4d505f424f554e444152595f4245464f5245203d203135,
  0x23204d617070696e677320646f206e6f742068617665206120636f6d7020626f756e64617279206265666f72652e,
  0x49585f4d494e5f4e4f5f4e4f5f434f4d505f4e4f5f4d415942455f4343203d203136,
  0x23204d617070696e677320746f2074686520656d70747920737472696e672e,
  0x49585f4d494e5f4e4f5f4e4f5f454d505459203d203137,
  0x0,
  0x49585f4d494e5f4c4343435f4350203d203138,
  0x49585f52455345525645443139203d203139,
  0x49585f434f554e54203d203230,
  0x0,
  0x4d415050494e475f4841535f4343435f4c4343435f574f5244203d2030783830,
  0x4d415050494e475f4841535f5241575f4d415050494e47203d2030783430,
  0x2320756e75736564206269742030783230,
  0x4d415050494e475f4c454e4754485f4d41534b203d2030783166,
  0x0,
  0x23204b6f7265616e2048616e67756c20616e64204a616d6f20636f6e7374616e7473,
  0x4a414d4f5f4c5f42415345203d2030783131303020202020202320226c65616422206a616d6f,
  0x4a414d4f5f4c5f454e44203d20307831313132,
  0x4a414d4f5f565f42415345203d203078313136312020202020232022766f77656c22206a616d6f,
  0x4a414d4f5f565f454e44203d20307831313735,
  0x4a414d4f5f545f42415345203d203078313161372020202020232022747261696c22206a616d6f,
  0x4a414d4f5f545f454e44203d20307831316332,
  0x0,
  0x48414e47554c5f42415345203d20307861633030,
  0x48414e47554c5f454e44203d20307864376133,
  0x0,
  0x4a414d4f5f4c5f434f554e54203d203139,
  0x4a414d4f5f565f434f554e54203d203231,
  0x4a414d4f5f545f434f554e54203d203238,
  0x0,
  0x4a414d4f5f56545f434f554e54203d204a414d4f5f565f434f554e54202a204a414d4f5f545f434f554e54,
  0x0,
  0x48414e47554c5f434f554e54203d204a414d4f5f4c5f434f554e54202a204a414d4f5f565f434f554e54202a204a414d4f5f545f434f554e54,
  0x48414e47554c5f4c494d4954203d2048414e47554c5f42415345202b2048414e47554c5f434f554e54,
  0x0,
  0x636c617373204e6f726d616c697a657232286f626a656374293a,
  0x20202020646566205f5f696e69745f5f2873656c662c20747269653a204350547269652c20696e64657865733a20747970696e672e53657175656e63655b696e745d2c206578747261446174613a20747970696e672e53657175656e63655b696e745d293a,
  0x202020202020202073656c662e74726965203d2074726965,
  0x0,
  0x202020202020202073656c662e6d696e4465636f6d704e6f4350203d20696e64657865735b49585f4d494e5f4445434f4d505f4e4f5f43505d,
  0x202020202020202073656c662e6d696e436f6d704e6f4d617962654350203d20696e64657865735b49585f4d494e5f434f4d505f4e4f5f4d415942455f43505d,
  0x202020202020202073656c662e6d696e4c6363634350203d20696e64657865735b49585f4d494e5f4c4343435f43505d,
  0x0,
  0x202020202020202073656c662e6d696e5965734e6f203d20696e64657865735b49585f4d494e5f5945535f4e4f5d,
  0x202020202020202073656c662e6d696e5965734e6f4d617070696e67734f6e6c79203d20696e64657865735b49585f4d494e5f5945535f4e4f5f4d415050494e47535f4f4e4c595d,
  0x202020202020202073656c662e6d696e4e6f4e6f203d20696e64657865735b49585f4d494e5f4e4f5f4e4f5d,
  0x202020202020202073656c662e6d696e4e6f4e6f436f6d70426f756e646172794265666f7265203d20696e64657865735b49585f4d494e5f4e4f5f4e4f5f434f4d505f424f554e444152595f4245464f52455d,
  0x202020202020202073656c662e6d696e4e6f4e6f436f6d704e6f4d617962654343203d20696e64657865735b49585f4d494e5f4e4f5f4e4f5f434f4d505f4e4f5f4d415942455f43435d,
  0x202020202020202073656c662e6d696e4e6f4e6f456d707479203d20696e64657865735b49585f4d494e5f4e4f5f4e4f5f454d5054595d,
  0x202020202020202073656c662e6c696d69744e6f4e6f203d20696e64657865735b49585f4c494d49545f4e4f5f4e4f5d,
  0x202020202020202073656c662e6d696e4d61796265596573203d20696e64657865735b49585f4d494e5f4d415942455f5945535d,
  0x2020202020202020617373657274202873656c662e6d696e4d617962655965732026203729203d3d203020202320382d616c69676e656420666f72206e6f4e6f44656c746120626974206669656c6473,
  0x202020202020202073656c662e63656e7465724e6f4e6f44656c7461203d202873656c662e6d696e4d61796265596573203e3e2044454c54415f534849465429202d204d41585f44454c5441202d2031,
  0x0,
  0x20202020202020206578747261446174615374617274203d20284d494e5f4e4f524d414c5f4d415942455f594553202d20696e64657865735b49585f4d494e5f4d415942455f5945535d29203e3e204f46465345545f5348494654,
  0x202020202020202073656c662e6d61796265596573436f6d706f736974696f6e73203d206578747261446174615b3a65787472614461746153746172745d,
  0x202020202020202073656c662e657874726144617461203d206578747261446174615b65787472614461746153746172743a5d,
  0x0,
  0x2020202040636c6173736d6574686f64,
  0x202020206465662063726561746546726f6d48617264436f6465644461746128636c73293a,
  0x202020202020202074726965203d20435054726965286e6f726d325f6e66635f646174615f74726965496e6465782c206e6f726d325f6e66635f646174615f74726965446174612c206e6f726d325f6e66635f646174615f747970652c206e6f726d325f6e66635f646174615f76616c756557696474682c205c,
  0x202020202020202020202020202020202020202020206e6f726d325f6e66635f646174615f696e646578334e756c6c4f66667365742c206e6f726d325f6e66635f646174615f646174614e756c6c4f66667365742c206e6f726d325f6e66635f646174615f6869676853746172742c206e6f726d325f6e66635f646174615f73686966746564313248696768537461727429,
  0x0,
  0x202020202020202072657475726e204e6f726d616c697a65723228747269652c206e6f726d325f6e66635f646174615f696e64657865732c206e6f726d325f6e66635f646174615f65787472614461746129,
  0x0,
  0x2020202040636c6173736d6574686f64,
  0x202020206465662063726561746546726f6d46696c654461746128636c732c207061636b6167653a20737472293a,
  0x202020202020202069637544617461203d20494355446174612829,
  0x0,
  0x2020202020202020646174614f66667365742c2064617461486561646572203d20696375446174612e676574446174614f6666736574416e644865616465722866227b7061636b6167657d2e6e726d2229,
  0x2020202020202020626173654f6666736574203d20646174614f6666736574202b20646174614865616465722e6865616465724c656e677468,
  0x0,
  0x2020202020202020696e64696365735374617274203d20626173654f6666736574,
  0x2020202020202020696e6469636573436f756e742c203d207374727563742e756e7061636b282249222c20696375446174612e6765744461746128696e646963657353746172742c20696e64696365735374617274202b20342929,
  0x2020202020202020696e6469636573436f756e74202f2f3d2034,
  0x2020202020202020696e64696365734c696d6974203d20696e64696365735374617274202b2028696e6469636573436f756e74202a203429,
  0x2020202020202020696e6469636573466f726d6174203d2066227b696e6469636573436f756e747d4922,
  0x2020202020202020696e6469636573203d207374727563742e756e7061636b28696e6469636573466f726d61742c20696375446174612e6765744461746128696e646963657353746172742c20696e64696365734c696d69742929,
  0x0,
  0x2020202020202020747269655374617274203d20696e64696365735b49585f4e4f524d5f545249455f4f46465345545d202b20626173654f6666736574,
  0x2020202020202020747269654c696d6974203d20696e64696365735b49585f45585452415f444154415f4f46465345545d202b20626173654f6666736574,
  0x0,
  0x202020202020202074726965203d204350547269652e63726561746546726f6d4461746128696375446174612e67657444617461287472696553746172742c20747269654c696d69742929,
  0x0,
  0x20202020202020206578747261446174615374617274203d20747269654c696d6974,
  0x20202020202020206578747261446174614c696d6974203d20696e64696365735b49585f534d414c4c5f4643445f4f46465345545d202b20626173654f6666736574,
  0x20202020202020206578747261446174614c656e677468203d20286578747261446174614c696d6974202d20657874726144617461537461727429202f2f2032,
  0x2020202020202020657874726144617461466f726d6174203d2066227b6578747261446174614c656e6774687d4822,
  0x2020202020202020657874726144617461203d207374727563742e756e7061636b28657874726144617461466f726d61742c20696375446174612e676574446174612865787472614461746153746172742c206578747261446174614c696d69742929,
  0x0,
  0x202020202020202072657475726e204e6f726d616c697a65723228747269652c20696e64696365732c2065787472614461746129,
  0x0,
  0x20202020646566206765744e6f726d31362873656c662c20633a20696e7429202d3e20696e743a,
  0x202020202020202072657475726e20494e4552542069662069734c65616428632920656c73652073656c662e747269652e676574286329,
  0x0,
  0x20202020646566206765745261774e6f726d31362873656c662c20633a20696e7429202d3e20696e743a,
  0x202020202020202072657475726e2073656c662e747269652e676574286329,
  0x0,
  0x202020206465662069734d617962654f724e6f6e5a65726f43432873656c662c206e6f726d31363a20696e7429202d3e20626f6f6c3a,
  0x202020202020202072657475726e206e6f726d3136203e3d2073656c662e6d696e4d61796265596573,
  0x0,
  0x202020206465662069734465636f6d704e6f416c676f726974686d69632873656c662c206e6f726d31363a696e7429202d3e20626f6f6c3a,
  0x202020202020202072657475726e206e6f726d3136203e3d2073656c662e6c696d69744e6f4e6f,
  0x0,
  0x202020206465662069734465636f6d705965732873656c662c206e6f726d31363a20696e7429202d3e20626f6f6c3a,
  0x202020202020202072657475726e206e6f726d3136203c2073656c662e6d696e5965734e6f206f722073656c662e6d696e4d61796265596573203c3d206e6f726d3136,
  0x0,
  0x20202020646566206973496e6572742873656c662c206e6f726d31363a20696e7429202d3e20626f6f6c3a,
  0x202020202020202072657475726e206e6f726d3136203d3d20494e455254,
  0x0,
  0x202020206465662069734a616d6f4c2873656c662c206e6f726d31363a20696e7429202d3e20626f6f6c3a,
  0x202020202020202072657475726e206e6f726d3136203d3d204a414d4f5f4c,
  0x0,
  0x202020206465662069734a616d6f56542873656c662c206e6f726d31363a20696e7429202d3e20626f6f6c3a,
  0x202020202020202072657475726e206e6f726d3136203d3d204a414d4f5f5654,
  0x0,
  0x202020206465662068616e67756c4c56542873656c6629202d3e20696e743a,
  0x202020202020202072657475726e2073656c662e6d696e5965734e6f4d617070696e67734f6e6c79207c204841535f434f4d505f424f554e444152595f4146544552,
  0x0,
  0x2020202064656620697348616e67756c4c562873656c662c206e6f726d31363a20696e7429202d3e20626f6f6c3a,
  0x202020202020202072657475726e206e6f726d3136203d3d2073656c662e6d696e5965734e6f,
  0x0,
  0x2020202064656620697348616e67756c4c56542873656c662c206e6f726d31363a20696e7429202d3e20696e743a,
  0x20202020202020202020202072657475726e206e6f726d3136203d3d2073656c662e68616e67756c4c56542829,
  0x0,
  0x202020206465662068616e67756c4465636f6d706f736974696f6e2873656c662c20633a20696e7429202d3e207374723a,
  0x20202020202020206465636f6d706f736974696f6e203d202222,
  0x202020202020202063202d3d2048414e47554c5f42415345,
  0x20202020202020206332203d20632025204a414d4f5f545f434f554e54,
  0x202020202020202063202f2f3d204a414d4f5f545f434f554e54,
  0x0,
  0x20202020202020206465636f6d706f736974696f6e202b3d20636872284a414d4f5f4c5f42415345202b2063202f2f204a414d4f5f565f434f554e5429,
  0x20202020202020206465636f6d706f736974696f6e202b3d20636872284a414d4f5f565f42415345202b20632025204a414d4f5f565f434f554e5429,
  0x0,
  0x2020202020202020696620633220213d20303a,
  0x2020202020202020202020206465636f6d706f736974696f6e202b3d20636872284a414d4f5f545f42415345202b20633229,
  0x0,
  0x202020202020202072657475726e206465636f6d706f736974696f6e,
  0x0,
  0x202020206465662072617748616e67756c4465636f6d706f736974696f6e2873656c662c20633a20696e7429202d3e207374723a,
  0x20202020202020206465636f6d706f736974696f6e203d202222,
  0x20202020202020206f726967203d2063,
  0x202020202020202063202d3d2048414e47554c5f42415345,
  0x20202020202020206332203d20632025204a414d4f5f545f434f554e54,
  0x0,
  0x20202020202020206966206332203d3d20303a,
  0x20202020202020202020202063202f2f3d204a414d4f5f545f434f554e54,
  0x2020202020202020202020206465636f6d706f736974696f6e202b3d20636872284a414d4f5f4c5f42415345202b2063202f2f204a414d4f5f565f434f554e5429,
  0x2020202020202020202020206465636f6d706f736974696f6e202b3d20636872284a414d4f5f565f42415345202b20632025204a414d4f5f565f434f554e5429,
  0x2020202020202020656c73653a,
  0x2020202020202020202020206465636f6d706f736974696f6e202b3d20636872286f726967202d20633229202023204c562073796c6c61626c65,
  0x2020202020202020202020206465636f6d706f736974696f6e202b3d20636872284a414d4f5f545f42415345202b20633229,
  0x0,
  0x202020202020202072657475726e206465636f6d706f736974696f6e,
  0x0,
  0x20202020646566206d6170416c676f726974686d69632873656c662c20633a20696e742c206e6f726d31363a20696e7429202d3e20696e743a,
  0x20202020202020202020202072657475726e2063202b20286e6f726d3136203e3e2044454c54415f534849465429202d2073656c662e63656e7465724e6f4e6f44656c7461,
  0x0,
  0x20202020646566206765744d617070696e67496e6465782873656c662c206e6f726d31363a20696e7429202d3e20696e743a,
  0x202020202020202072657475726e206e6f726d3136203e3e204f46465345545f5348494654,
  0x0,
  0x2020202064656620737472696e6746726f6d446174612873656c662c20696e6465783a20696e742c206c656e6774683a20696e7429202d3e207374723a,
  0x202020202020202073203d202222,
  0x20202020202020206c656164203d203020202320666f7220746865206c6561642062797465206f66206120737572726f676174652070616972,
  0x2020202020202020666f72206920696e2072616e6765286c656e677468293a,
  0x2020202020202020202020206368203d2073656c662e6578747261446174615b696e646578202b20695d,
  0x0,
  0x202020202020202020202020232068616e646c6520737572726f67617465207061697273,
  0x2020202020202020202020206966206c65616420213d20303a,
  0x202020202020202020202020202020206368203d206368617246726f6d537572726f6761746573286c6561642c20636829,
  0x202020202020202020202020202020206c656164203d2030,
  0x202020202020202020202020656c69662069734c656164286368293a,
  0x202020202020202020202020202020206c656164203d206368,
  0x20202020202020202020202020202020636f6e74696e7565,
  0x0,
  0x20202020202020202020202073202b3d2063687228636829,
  0x0,
  0x202020202020202072657475726e2073,
  0x0,
  0x0,
  0x20202020646566206765744465636f6d706f736974696f6e2873656c662c20633a20696e7429202d3e20747970696e672e4f7074696f6e616c5b7374725d3a,
  0x20202020202020206465636f6d706f736974696f6e203d202222,
  0x20202020202020206e6f726d3136203d2073656c662e6765744e6f726d3136286329,
  0x202020202020202069662063203c2073656c662e6d696e4465636f6d704e6f4350206f722073656c662e69734d617962654f724e6f6e5a65726f4343286e6f726d3136293a,
  0x20202020202020202020202023206320646f6573206e6f74206465636f6d706f7365,
  0x20202020202020202020202072657475726e204e6f6e65,
  0x0,
  0x202020202020202069662073656c662e69734465636f6d704e6f416c676f726974686d6963286e6f726d3136293a,
  0x20202020202020202020202023204d61707320746f20616e206973436f6d70596573416e645a65726f43432e,
  0x20202020202020202020202063203d2073656c662e6d6170416c676f726974686d696328632c206e6f726d313629,
  0x2020202020202020202020206465636f6d706f736974696f6e202b3d20636872286329,
  0x2020202020202020202020206e6f726d3136203d2073656c662e6765745261774e6f726d3136286329,
  0x0,
  0x20202020202020206966206e6f726d3136203c2073656c662e6d696e5965734e6f3a,
  0x20202020202020202020202072657475726e206465636f6d706f736974696f6e206966206c656e286465636f6d706f736974696f6e29203e203020656c7365204e6f6e65,
  0x0,
  0x20202020202020206465636f6d706f736974696f6e203d202222,
  0x202020202020202069662073656c662e697348616e67756c4c56286e6f726d313629206f722073656c662e697348616e67756c4c5654286e6f726d3136293a,
  0x202020202020202020202020232048616e67756c2073796c6c61626c653a206465636f6d706f736520616c676f726974686d6963616c6c79,
  0x20202020202020202020202072657475726e2073656c662e68616e67756c4465636f6d706f736974696f6e286329,
  0x0,
  0x2020202020202020232063206465636f6d706f7365732c206765742065766572797468696e672066726f6d20746865207661726961626c652d6c656e6774682065787472612064617461,
  0x20202020202020206978203d2073656c662e6765744d617070696e67496e646578286e6f726d313629,
  0x20202020202020206c656e677468203d2073656c662e6578747261446174615b69785d2026204d415050494e475f4c454e4754485f4d41534b,
  0x0,
  0x20202020202020206465636f6d706f736974696f6e202b3d2073656c662e737472696e6746726f6d44617461286978202b20312c206c656e67746829,
  0x0,
  0x202020202020202072657475726e206465636f6d706f736974696f6e,
  0x0,
  0x20202020646566206765745261774465636f6d706f736974696f6e2873656c662c20633a20696e7429202d3e20747970696e672e4f7074696f6e616c5b7374725d3a,
  0x20202020202020206465636f6d706f736974696f6e203d202222,
  0x20202020202020206e6f726d3136203d2073656c662e6765744e6f726d3136286329,
  0x202020202020202069662063203c2073656c662e6d696e4465636f6d704e6f4350206f722073656c662e69734465636f6d70596573286e6f726d3136293a,
  0x20202020202020202020202023206320646f6573206e6f74206465636f6d706f7365,
  0x20202020202020202020202072657475726e204e6f6e65,
  0x0,
  0x202020202020202069662073656c662e697348616e67756c4c56286e6f726d313629206f722073656c662e697348616e67756c4c5654286e6f726d3136293a,
  0x202020202020202020202020232048616e67756c2073796c6c61626c653a206465636f6d706f736520616c676f726974686d6963616c6c79,
  0x20202020202020202020202072657475726e2073656c662e72617748616e67756c4465636f6d706f736974696f6e286329,
  0x0,
  0x202020202020202069662073656c662e69734465636f6d704e6f416c676f726974686d6963286e6f726d3136293a,
  0x20202020202020202020202063203d2073656c662e6d6170416c676f726974686d696328632c206e6f726d313629,
  0x20202020202020202020202072657475726e20636872286329,
  0x0,
  0x2020202020202020232063206465636f6d706f7365732c206765742065766572797468696e672066726f6d20746865207661726961626c652d6c656e6774682065787472612064617461,
  0x20202020202020206978203d2073656c662e6765744d617070696e67496e646578286e6f726d313629,
  0x20202020202020206669727374556e6974203d2073656c662e6578747261446174615b69785d,
  0x20202020202020206c656e677468203d206669727374556e69742026204d415050494e475f4c454e4754485f4d41534b,
  0x20202020202020206966206669727374556e69742026204d415050494e475f4841535f5241575f4d415050494e473a,
  0x2020202020202020202020202320526561642074686520726177206d617070696e672066726f6d206265666f726520746865206669727374556e6974,
  0x2020202020202020202020202320616e64206265666f726520746865206f7074696f6e616c206363632f6c63636320776f72642e,
  0x20202020202020202020202023204269742037203d204d415050494e475f4841535f4343435f4c4343435f574f5244,
  0x2020202020202020202020207261774d617070696e67496e646578203d206978202d2028286669727374556e6974203e3e2037292026203129202d2031,
  0x202020202020202020202020726d30203d2073656c662e6578747261446174615b7261774d617070696e67496e6465785d,
  0x0,
  0x202020202020202020202020696620726d30203c3d204d415050494e475f4c454e4754485f4d41534b3a,
  0x202020202020202020202020202020206c656e677468203d20726d30,
  0x202020202020202020202020202020206978203d207261774d617070696e67496e646578202d20726d30,
  0x202020202020202020202020656c73653a,
  0x202020202020202020202020202020202320436f707920746865206e6f726d616c206d617070696e6720616e64207265706c616365206974732066697273742074776f20636f646520756e697473207769746820726d302e,
  0x202020202020202020202020202020206465636f6d706f736974696f6e202b3d2063687228726d3029,
  0x202020202020202020202020202020206978202b3d2033,
  0x202020202020202020202020202020206c656e677468202d3d2032,
  0x2020202020202020656c73653a,
  0x2020202020202020202020206978202b3d2031,
  0x0,
  0x20202020202020206966206e6f74206465636f6d706f736974696f6e20616e64206c656e677468203d3d20303a2072657475726e204e6f6e65,
  0x0,
  0x20202020202020206465636f6d706f736974696f6e202b3d2073656c662e737472696e6746726f6d446174612869782c206c656e67746829,
  0x0,
  0x202020202020202072657475726e206465636f6d706f736974696f6e,
  0x0,
  0x6e666354726965203d204e6f726d616c697a6572322e63726561746546726f6d48617264436f646564446174612829,
  0x6e666b6354726965203d204e6f726d616c697a6572322e63726561746546726f6d46696c654461746128226e666b632229,
  0x6e666b635f636654726965203d204e6f726d616c697a6572322e63726561746546726f6d46696c654461746128226e666b635f63662229,
  0x0]

/-- UnicodeData/UnicodeSet.py:1-822 the lines of the file. -/
def UnicodeSet : List Nat :=
 [0x2727275c,
  0x43726561746564206f6e204170722031342c2032303230,
  0x0,
  0x412073696d706c69666965642076657273696f6e206f662074686520556e69636f646553657420636c6173732066726f6d204943552e,
  0x0,
  0x40617574686f723a20656d61646572,
  0x272727,
  0x0,
  0x66726f6d205f5f6675747572655f5f20696d706f727420616e6e6f746174696f6e73,
  0x0,
  0x0,
  0x696d706f727420747970696e67,
  0x0,
  0x232066726f6d202e5574696c697469657320696d706f7274206c6973744f66436f646573,
  0x0,
  0x554e49434f44455f5345545f48494748203d20307830313130303030,
  0x222222412076616c75652067726561746572207468616e20616c6c20556e69636f646520636f646520706f696e74732e222222,
  0x0,
  0x554e49434f44455f5345545f4c4f57203d20307830303030303030,
  0x222222546865206c6f776573742076616c696420556e69636f646520636f646520706f696e742e222222,
  0x0,
  0x0,
  0x646566205f70696e436f6465506f696e742863703a20696e7429202d3e20696e743a,
  0x202020202222225c,
  0x202020204d6f646966792074686520676976656e20636f646520706f696e7420736f207468617420697420697320696e207468652072616e6765205b554e49434f44455f5345545f4c4f57202d20554e49434f44455f5345545f484947485d2e,
  0x2020202056616c756573206c657373207468617420554e49434f44455f5345545f4c4f572077696c6c2062652073657420746f20554e49434f44455f5345545f4c4f5720616e642076616c7565732067726561746572207468616e,
  0x20202020746f20554e49434f44455f5345545f48494748202d20312077696c6c2062652073657420746f20554e49434f44455f5345545f48494748202d2031,
  0x0,
  0x202020203a706172616d2063703a2074686520636f646520706f696e74,
  0x202020203a72657475726e3a207468652070696e6e65642076616c7565,
  0x20202020222222,
  0x20202020696620286370203c20554e49434f44455f5345545f4c4f57293a,
  0x20202020202020206370203d20554e49434f44455f5345545f4c4f57,
  0x20202020656c696620286370203e2028554e49434f44455f5345545f48494748202d203129293a,
  0x20202020202020206370203d20554e49434f44455f5345545f48494748202d2031,
  0x0,
  0x2020202072657475726e206370,
  0x0,
  0x0,
  0x636c61737320556e69636f6465536574286f626a656374293a,
  0x202020202222225c,
  0x2020202041206d757461626c6520736574206f6620556e69636f646520636861726163746572732e,
  0x0,
  0x202020204c6567616c20636f646520706f696e74732061726520552b3030303020746f20552b31304646464620696e636c75736976652e,
  0x0,
  0x202020205468652069746572666163652069732073696d696c617220746f20507974686f6e27732073657420636c6173732e20416c6c,
  0x202020206f7065726174696f6e73206f66207365742061726520737570706f727465642c20657863657074207468617420746865792074616b65,
  0x202020206120636f646520706f696e742072616e67652c206f7220612073696e676c6520636f646520706f696e7420696e7374656164206f6620616e,
  0x20202020617262697472617279206f626a6563742e,
  0x0,
  0x2020202074686520415049206d61792062652074686f75676874206f6620696e207465726d73206f6620626f6f6c65616e206c6f6769632e20416e204f52,
  0x202020206f7065726174696f6e20697320696d706c656d656e7465642062792061646428292c20616e20414e44206f7065726174696f6e20697320696d706c656d656e746564,
  0x2020202062792072657461696e28292c20616e20584f52206f7065726174696f6e20697320696d706c656d656e74656420627920636f6d706c656d656e7428292074616b696e67,
  0x20202020616e20617267756d656e742c20616e642061204e4f54206f7065726174696f6e20697320696d706c656d656e74656420627920636f6d706c656d656e7428292077697468,
  0x202020206e6f20617267756d656e742e,
  0x0,
  0x20202020496e207465726d73206f6620747261646974696f6e616c20736574207468656f72792066756e6374696f6e206e616d65732c20616464282920697320756e696f6e2c,
  0x2020202072657461696e282920697320696e74657273656374696f6e2c642072656d6f76652829206973206173796d6d657472696320646966666572656e636520616e64,
  0x20202020636f6d706c696d656e7428292077697468206e6f20617267756d656e74732069732073657420636f6d706c696d656e742077697468207265737065637420746f20746865,
  0x2020202072616e6765205b554e49434f44455f5345545f4c4f57202d20554e49434f44455f5345545f484947485d2e,
  0x20202020222222,
  0x0,
  0x20202020646566205f66696e64436f6465506f696e742873656c662c2063703a20696e7429202d3e20696e743a,
  0x20202020202020202222225c,
  0x202020202020202052657475726e732074686520736d616c6c6573742076616c7565206920737563682074686174206370203c2073656c662e6c6973745b695d2e2043616c6c6572,
  0x20202020202020206d75737420696e7375726520746861742063702069732061206c6567616c2076616c7565206f7220746869732066756e6374696f6e2077696c6c20656e746572,
  0x2020202020202020616e20696e66696e697465206c6f6f702e,
  0x0,
  0x20202020202020203a706172616d2063703a20612063686172616374657220696e207468652072616e6765205b554e49434f44455f5345545f4c4f57202d20554e49434f44455f5345545f484947485d,
  0x20202020202020203a72657475726e3a2074686520736d616c6c65737420696e7465676572206920696e207468652072616e6765205b30202d206c656e2873656c662e6c69737429202d20312c20696e636c757369766520737563682074686174206370206c657373207468616e2073656c662e6c6973745b695d,
  0x2020202020202020222222,
  0x20202020202020206966206370203c2073656c662e6c6973745b305d3a,
  0x20202020202020202020202072657475726e2030,
  0x0,
  0x20202020202020206c656e677468203d206c656e2873656c662e6c69737429,
  0x20202020202020206c6f3a20696e74203d2030,
  0x202020202020202068693a20696e74203d206c656e677468202d2031,
  0x0,
  0x20202020202020202320486967682072756e6e657220746573742e206370206973206f6674656e20616674657220746865206c6173742072616e6765,
  0x20202020202020202320736f207468697320746573742070617973206f6666,
  0x20202020202020206966206c6f203e3d206869206f72206370203e3d2073656c662e6c6973745b6869202d20315d3a,
  0x20202020202020202020202072657475726e206869,
  0x0,
  0x20202020202020202320696e76617269616e743a206370203e3d206c6973745b6c6f5d,
  0x20202020202020202320696e76617269616e743a206370203c206c6973745b68695d,
  0x0,
  0x20202020202020207768696c6520547275653a,
  0x20202020202020202020202069203d20286c6f202b20686929203e3e2031,
  0x0,
  0x20202020202020202020202069662069203d3d206c6f3a,
  0x20202020202020202020202020202020627265616b,
  0x0,
  0x2020202020202020202020206966206370203c2073656c662e6c6973745b695d3a,
  0x202020202020202020202020202020206869203d2069,
  0x202020202020202020202020656c73653a,
  0x202020202020202020202020202020206c6f203d2069,
  0x0,
  0x202020202020202072657475726e206869,
  0x0,
  0x20202020646566205f72657461696e4c6973742873656c662c206f746865723a6c6973745b696e745d2c20706f6c61726974793a20696e74203d2030293a,
  0x20202020202020202222225c,
  0x2020202020202020496e74657273656374207769746820746865206c697374206f746865722c20617320636f6e74726f6c6c656420627920706f6c61726974792e,
  0x0,
  0x2020202020202020706f6c6172697479203d20303a207820696e7465727365637420795c6e,
  0x2020202020202020706f6c6172697479203d20323a207820696e74657273656374207e7920287365742d6d696e7573295c6e,
  0x2020202020202020706f6c6172697479203d20313a207e7820696e7465727365637420795c6e,
  0x2020202020202020706f6c6172697479203d20333a207e7820696e74657273656374207e795c6e,
  0x0,
  0x20202020202020203a706172616d206f746865723a20746865206c697374207769746820776869636820746f20696e74657273656374,
  0x20202020202020203a706172616d20706f6c61726974793a207468652074797065206f6620696e74657273656374696f6e2c206173206465736372696265642061626f76652e202864656661756c74206973203029,
  0x20202020202020203a72657475726e3a2073656c662c20746f20737570706f727420636861696e696e672e,
  0x2020202020202020222222,
  0x202020202020202023206966206f74686572206973204e6f6e65206f72206c656e286f7468657229203d3d20303a,
  0x202020202020202023202020202072657475726e,
  0x0,
  0x20202020202020206275666665723a206c6973745b696e745d203d205b5d,
  0x0,
  0x20202020202020202320432b2b20636f6465206861733a,
  0x20202020202020202320696e7433325f742069203d20302c206a203d20302c206b203d2030,
  0x20202020202020202320554368617233322061203d206c6973745b692b2b5d,
  0x20202020202020202320554368617233322062203d206f746865725b6a2b2b5d,
  0x202020202020202069203d2031,
  0x20202020202020206a203d2031,
  0x202020202020202061203d2073656c662e6c6973745b305d,
  0x202020202020202062203d206f746865725b305d,
  0x0,
  0x20202020202020202320706f6c6172697479206269742031206d65616e732061206973207365636f6e642c206269742032206d65616e7320622069732e,
  0x20202020202020207768696c6520547275653a,
  0x202020202020202020202020696620706f6c6172697479203d3d20303a202320626f74682066697273743b2064726f702074686520736d616c6c6572,
  0x2020202020202020202020202020202069662061203c20623a20232064726f702061,
  0x202020202020202020202020202020202020202061203d2073656c662e6c6973745b695d,
  0x202020202020202020202020202020202020202069202b3d2031,
  0x2020202020202020202020202020202020202020706f6c6172697479205e3d2031,
  0x20202020202020202020202020202020656c69662062203c20613a20232064726f702062,
  0x202020202020202020202020202020202020202062203d206f746865725b6a5d,
  0x20202020202020202020202020202020202020206a202b3d2031,
  0x2020202020202020202020202020202020202020706f6c6172697479205e3d2032,
  0x20202020202020202020202020202020656c73653a20232061203d3d20622c2074616b65206f6e652c2064726f70206f74686572,
  0x202020202020202020202020202020202020202069662061203d3d20554e49434f44455f5345545f484947483a,
  0x202020202020202020202020202020202020202020202020627265616b,
  0x20202020202020202020202020202020202020206275666665722e617070656e64286129,
  0x202020202020202020202020202020202020202061203d2073656c662e6c6973745b695d,
  0x202020202020202020202020202020202020202069202b3d2031,
  0x2020202020202020202020202020202020202020706f6c6172697479205e3d2031,
  0x202020202020202020202020202020202020202062203d206f746865725b6a5d,
  0x20202020202020202020202020202020202020206a202b3d2031,
  0x2020202020202020202020202020202020202020706f6c6172697479205e3d2032,
  0x202020202020202020202020656c696620706f6c6172697479203d3d20333a202320626f7468207365636f6e643b2074616b65206c6f77657220696620756e657175616c,
  0x2020202020202020202020202020202069662061203c20623a20232074616b652061,
  0x20202020202020202020202020202020202020206275666665722e617070656e64286129,
  0x202020202020202020202020202020202020202061203d2073656c662e6c6973745b695d,
  0x202020202020202020202020202020202020202069202b3d2031,
  0x2020202020202020202020202020202020202020706f6c6172697479205e3d2031,
  0x20202020202020202020202020202020656c69662062203c20613a20232074616b652062,
  0x20202020202020202020202020202020202020206275666665722e617070656e64286229,
  0x202020202020202020202020202020202020202062203d206f746865725b6a5d,
  0x20202020202020202020202020202020202020206a202b3d2031,
  0x2020202020202020202020202020202020202020706f6c6172697479205e3d2032,
  0x20202020202020202020202020202020656c73653a20232061203d3d20622c2074616b65206f6e652c2064726f70206f74686572,
  0x202020202020202020202020202020202020202069662061203d3d20554e49434f44455f5345545f484947483a,
  0x202020202020202020202020202020202020202020202020627265616b,
  0x20202020202020202020202020202020202020206275666665722e617070656e64286129,
  0x202020202020202020202020202020202020202061203d2073656c662e6c6973745b695d,
  0x202020202020202020202020202020202020202069202b3d2031,
  0x2020202020202020202020202020202020202020706f6c6172697479205e3d2031,
  0x202020202020202020202020202020202020202062203d206f746865725b6a5d,
  0x20202020202020202020202020202020202020206a202b3d2031,
  0x2020202020202020202020202020202020202020706f6c6172697479205e3d2032,
  0x0,
  0x202020202020202020202020656c696620706f6c6172697479203d3d20313a20232061207365636f6e642c2062206669727374,
  0x2020202020202020202020202020202069662061203c20623a2023206e6f206f7665726c61702c2064726f702061,
  0x202020202020202020202020202020202020202061203d2073656c662e6c6973745b695d,
  0x202020202020202020202020202020202020202069202b3d2031,
  0x2020202020202020202020202020202020202020706f6c6172697479205e3d2031,
  0x20202020202020202020202020202020656c69662062203c20613a2023206f7665726c61702c2074616b652062,
  0x20202020202020202020202020202020202020206275666665722e617070656e64286229,
  0x202020202020202020202020202020202020202062203d206f746865725b6a5d,
  0x20202020202020202020202020202020202020206a202b3d2031,
  0x2020202020202020202020202020202020202020706f6c6172697479205e3d2032,
  0x20202020202020202020202020202020656c73653a20232061203d3d20622c2064726f7020626f746821,
  0x202020202020202020202020202020202020202069662061203d3d20554e49434f44455f5345545f484947483a,
  0x202020202020202020202020202020202020202020202020627265616b,
  0x202020202020202020202020202020202020202061203d2073656c662e6c6973745b695d,
  0x202020202020202020202020202020202020202069202b3d2031,
  0x2020202020202020202020202020202020202020706f6c6172697479205e3d2031,
  0x202020202020202020202020202020202020202062203d206f746865725b6a5d,
  0x20202020202020202020202020202020202020206a202b3d2031,
  0x2020202020202020202020202020202020202020706f6c6172697479205e3d2032,
  0x0,
  0x202020202020202020202020656c696620706f6c6172697479203d3d20323a202320612066697273742c2062207365636f6e643b2069662061203c20622c206f7665726c6170,
  0x2020202020202020202020202020202069662062203c20613a2023206e6f206f7665726c61702c2064726f702062,
  0x202020202020202020202020202020202020202062203d206f746865725b6a5d,
  0x20202020202020202020202020202020202020206a202b3d2031,
  0x2020202020202020202020202020202020202020706f6c6172697479205e3d2032,
  0x20202020202020202020202020202020656c69662061203c20623a2023206f7665726c61702c2074616b652061,
  0x20202020202020202020202020202020202020206275666665722e617070656e64286129,
  0x202020202020202020202020202020202020202061203d2073656c662e6c6973745b695d,
  0x202020202020202020202020202020202020202069202b3d2031,
  0x2020202020202020202020202020202020202020706f6c6172697479205e3d2031,
  0x20202020202020202020202020202020656c73653a20232061203d3d20622c2064726f7020626f746821,
  0x202020202020202020202020202020202020202069662061203d3d20554e49434f44455f5345545f484947483a,
  0x202020202020202020202020202020202020202020202020627265616b,
  0x202020202020202020202020202020202020202061203d2073656c662e6c6973745b695d,
  0x202020202020202020202020202020202020202069202b3d2031,
  0x2020202020202020202020202020202020202020706f6c6172697479205e3d2031,
  0x202020202020202020202020202020202020202062203d206f746865725b6a5d,
  0x20202020202020202020202020202020202020206a202b3d2031,
  0x2020202020202020202020202020202020202020706f6c6172697479205e3d2032,
  0x0,
  0x20202020202020206275666665722e617070656e6428554e49434f44455f5345545f4849474829,
  0x202020202020202073656c662e6c697374203d20627566666572,
  0x202020202020202072657475726e2073656c66,
  0x0,
  0x20202020646566205f6164644c6973742873656c662c206f746865723a206c6973745b696e745d2c20706f6c61726974793a20696e74203d2030293a,
  0x20202020202020202222225c6e,
  0x2020202020202020556e696f6e2074686520736574207769746820746865206c697374206f746865722c20617320636f6e74726f6c6c656420627920706f6c61726974792e,
  0x0,
  0x2020202020202020706f6c6172697479203d20303a207820756e696f6e20795c6e,
  0x2020202020202020706f6c6172697479203d20323a207820756e696f6e207e795c6e,
  0x2020202020202020706f6c6172697479203d20313a207e7820756e696f6e20795c6e,
  0x2020202020202020706f6c6172697479203d20333a207e7820756e696f6e207e795c6e,
  0x0,
  0x20202020202020203a706172616d206f746865723a20746865206c697374207769746820776869636820746f20756e696f6e2e,
  0x20202020202020203a706172616d20706f6c61726974793a207468652074797065206f6620756e696f6e2c206173206465736372696265642061626f76652e202864656661756c74206973203029,
  0x20202020202020203a72657475726e3a2073656c662c20746f20737570706f727420636861696e696e672e,
  0x2020202020202020222222,
  0x202020202020202023206966206f74686572206973204e6f6e65206f72206c656e286f7468657229203d3d20303a,
  0x202020202020202023202020202072657475726e,
  0x0,
  0x20202020202020206275666665723a206c6973745b696e745d203d205b5d,
  0x0,
  0x20202020202020202320432b2b20636f6465206861733a,
  0x20202020202020202320696e7433325f742069203d20302c206a203d20302c206b203d2030,
  0x20202020202020202320554368617233322061203d206c6973745b692b2b5d,
  0x20202020202020202320554368617233322062203d206f746865725b6a2b2b5d,
  0x202020202020202069203d2031,
  0x20202020202020206a203d2031,
  0x202020202020202061203d2073656c662e6c6973745b305d,
  0x202020202020202062203d206f746865725b305d,
  0x0,
  0x20202020202020202320706f6c6172697479206269742031206d65616e732061206973207365636f6e642c206269742032206d65616e7320622069732e,
  0x20202020202020207768696c6520547275653a,
  0x202020202020202020202020696620706f6c6172697479203d3d20303a202320626f74682066697273742c2074616b65206c6f77657220696620756e657175616c,
  0x2020202020202020202020202020202069662061203c20623a20232074616b652061,
  0x202020202020202020202020202020202020202023204261636b207570206f766572206f7665726c617070696e672072616e67657320696e206275666665725b5d,
  0x20202020202020202020202020202020202020206966206c656e2862756666657229203e203020616e642061203c3d206275666665725b2d315d3a,
  0x20202020202020202020202020202020202020202020202061203d206d61782873656c662e6c6973745b695d2c206275666665722e706f70282929,
  0x2020202020202020202020202020202020202020656c73653a,
  0x2020202020202020202020202020202020202020202020206275666665722e617070656e64286129,
  0x20202020202020202020202020202020202020202020202061203d2073656c662e6c6973745b695d,
  0x0,
  0x202020202020202020202020202020202020202069202b3d2031,
  0x2020202020202020202020202020202020202020706f6c6172697479205e3d2031,
  0x20202020202020202020202020202020656c69662062203c20613a20232074616b652062,
  0x20202020202020202020202020202020202020206966206c656e2862756666657229203e203020616e642062203c206275666665725b2d315d3a,
  0x20202020202020202020202020202020202020202020202062203d206d6178286f746865725b6a5d2c206275666665722e706f70282929,
  0x2020202020202020202020202020202020202020656c73653a,
  0x2020202020202020202020202020202020202020202020206275666665722e617070656e64286229,
  0x20202020202020202020202020202020202020202020202062203d206f746865725b6a5d,
  0x0,
  0x20202020202020202020202020202020202020206a202b3d2031,
  0x2020202020202020202020202020202020202020706f6c6172697479205e3d2032,
  0x20202020202020202020202020202020656c73653a20232061203d3d20623a2074616b6520612c2064726f702062,
  0x202020202020202020202020202020202020202069662061203d3d20554e49434f44455f5345545f484947483a,
  0x202020202020202020202020202020202020202020202020627265616b,
  0x20202020202020202020202020202020202020206966206c656e2862756666657229203e203020616e642061203c206275666665725b2d315d3a,
  0x20202020202020202020202020202020202020202020202061203d206d61782873656c662e6c6973745b695d2c206275666665722e706f70282929,
  0x2020202020202020202020202020202020202020656c73653a,
  0x2020202020202020202020202020202020202020202020206275666665722e617070656e64286129,
  0x20202020202020202020202020202020202020202020202061203d2073656c662e6c6973745b695d,
  0x0,
  0x202020202020202020202020202020202020202069202b3d2031,
  0x2020202020202020202020202020202020202020706f6c6172697479205e3d2031,
  0x202020202020202020202020202020202020202062203d206f746865725b6a5d,
  0x20202020202020202020202020202020202020206a202b3d2031,
  0x2020202020202020202020202020202020202020706f6c6172697479205e3d2032,
  0x0,
  0x202020202020202020202020656c696620706f6c6172697479203d3d20333a202320626f7468207365636f6e643b2074616b652068696768657220696620756e657175616c2c20616e642064726f70206f74686572,
  0x2020202020202020202020202020202069662062203c3d20613a20232074616b652061,
  0x202020202020202020202020202020202020202069662061203d3d20554e49434f44455f5345545f484947483a,
  0x202020202020202020202020202020202020202020202020627265616b,
  0x20202020202020202020202020202020202020206275666665722e617070656e64286129,
  0x20202020202020202020202020202020656c73653a,
  0x202020202020202020202020202020202020202069662062203d3d20554e49434f44455f5345545f484947483a,
  0x202020202020202020202020202020202020202020202020627265616b,
  0x20202020202020202020202020202020202020206275666665722e617070656e64286229,
  0x2020202020202020202020202020202061203d2073656c662e6c6973745b695d,
  0x2020202020202020202020202020202069202b3d2031,
  0x20202020202020202020202020202020706f6c6172697479205e3d2031,
  0x2020202020202020202020202020202062203d206f746865725b6a5d,
  0x202020202020202020202020202020206a202b3d2031,
  0x20202020202020202020202020202020706f6c6172697479205e3d2032,
  0x0,
  0x202020202020202020202020656c696620706f6c6172697479203d3d20313a20232061207365636f6e642c20622066697273743b2069662062203c20612c206f7665726c6170,
  0x2020202020202020202020202020202069662061203c20623a2023206e6f206f7665726c61702c2074616b652061,
  0x20202020202020202020202020202020202020206275666665722e617070656e64286129,
  0x202020202020202020202020202020202020202061203d2073656c662e6c6973745b695d,
  0x202020202020202020202020202020202020202069202b3d2031,
  0x2020202020202020202020202020202020202020706f6c6172697479205e3d2031,
  0x20202020202020202020202020202020656c69662062203c20613a2023206f7665726c61702c2064726f702062,
  0x202020202020202020202020202020202020202062203d206f746865725b6a5d,
  0x20202020202020202020202020202020202020206a202b3d2031,
  0x2020202020202020202020202020202020202020706f6c6172697479205e3d2032,
  0x20202020202020202020202020202020656c73653a20232061203d3d20622c2064726f7020626f746821,
  0x202020202020202020202020202020202020202069662061203d3d20554e49434f44455f5345545f484947483a,
  0x202020202020202020202020202020202020202020202020627265616b,
  0x202020202020202020202020202020202020202061203d2073656c662e6c6973745b695d,
  0x202020202020202020202020202020202020202069202b3d2031,
  0x2020202020202020202020202020202020202020706f6c6172697479205e3d2031,
  0x202020202020202020202020202020202020202062203d206f746865725b6a5d,
  0x20202020202020202020202020202020202020206a202b3d2031,
  0x2020202020202020202020202020202020202020706f6c6172697479205e3d2032,
  0x0,
  0x202020202020202020202020656c696620706f6c6172697479203d3d20323a202320612066697273742c2062207365636f6e643b2069662061203c20622c206f7665726c6170,
  0x2020202020202020202020202020202069662062203c20613a2023206e6f206f7665726c61702c2074616b652062,
  0x20202020202020202020202020202020202020206275666665722e617070656e64286229,
  0x202020202020202020202020202020202020202062203d206f746865725b6a5d,
  0x20202020202020202020202020202020202020206a202b3d2031,
  0x2020202020202020202020202020202020202020706f6c6172697479205e3d2032,
  0x20202020202020202020202020202020656c69662061203c20623a2023206f7665726c61702c2064726f702061,
  0x202020202020202020202020202020202020202061203d2073656c662e6c6973745b695d,
  0x202020202020202020202020202020202020202069202b3d2031,
  0x2020202020202020202020202020202020202020706f6c6172697479205e3d2031,
  0x20202020202020202020202020202020656c73653a20232061203d3d20622c2064726f7020626f746821,
  0x202020202020202020202020202020202020202069662061203d3d20554e49434f44455f5345545f484947483a,
  0x202020202020202020202020202020202020202020202020627265616b,
  0x0,
  0x202020202020202020202020202020202020202061203d2073656c662e6c6973745b695d,
  0x202020202020202020202020202020202020202069202b3d2031,
  0x2020202020202020202020202020202020202020706f6c6172697479205e3d2031,
  0x202020202020202020202020202020202020202062203d206f746865725b6a5d,
  0x20202020202020202020202020202020202020206a202b3d2031,
  0x2020202020202020202020202020202020202020706f6c6172697479205e3d2032,
  0x0,
  0x20202020202020206275666665722e617070656e6428554e49434f44455f5345545f4849474829,
  0x202020202020202073656c662e6c697374203d20627566666572,
  0x202020202020202072657475726e2073656c66,
  0x0,
  0x20202020646566205f6578636c75736976654f724c6973742873656c662c206f746865723a206c6973745b696e745d2c20706f6c61726974793a20696e74203d2030293a,
  0x20202020202020202222225c,
  0x2020202020202020586f722074686520736574207769746820746865206c697374206f746865722c20617320636f6e74726f6c6c656420627920706f6c61726974792e,
  0x0,
  0x2020202020202020706f6c6172697479203d20302c20333a207820786f7220795c6e,
  0x2020202020202020706f6c6172697479203d20312c20323a207820786f72207e79202878203d3d3d2079295c6e,
  0x0,
  0x20202020202020203a706172616d206f746865723a20746865206c697374207769746820776869636820746f20786f72,
  0x20202020202020203a706172616d20706f6c61726974793a207468652074797065206f6620786f722c206173206465736372696265642061626f76652e202864656661756c74206973203029,
  0x20202020202020203a72657475726e3a2073656c662c20746f20737570706f727420636861696e696e672e,
  0x2020202020202020222222,
  0x202020202020202023206966206f74686572206973204e6f6e65206f72206c656e286f7468657229203d3d20303a,
  0x202020202020202023202020202072657475726e,
  0x0,
  0x20202020202020206275666665723a206c6973745b696e745d203d205b5d,
  0x0,
  0x20202020202020202320432b2b20636f6465206861733a,
  0x20202020202020202320696e7433325f742069203d20302c206a203d20302c206b203d2030,
  0x20202020202020202320554368617233322061203d206c6973745b692b2b5d,
  0x20202020202020202320554368617233322062,
  0x202020202020202069203d2031,
  0x20202020202020206a203d2031,
  0x202020202020202061203d2073656c662e6c6973745b305d,
  0x202020202020202062203d206f746865725b305d,
  0x0,
  0x2020202020202020696620706f6c6172697479203d3d2031206f7220706f6c6172697479203d3d20323a,
  0x20202020202020202020202062203d20554e49434f44455f5345545f4c4f57,
  0x2020202020202020202020206966206f746865725b305d203d3d20554e49434f44455f5345545f4c4f573a202320736b6970206261736520696620616c7265616479204c4f57,
  0x2020202020202020202020202020202062203d206f746865725b315d,
  0x2020202020202020656c73653a,
  0x20202020202020202020202062203d206f746865725b305d,
  0x0,
  0x2020202020202020232073696d706c653a20736f72742076616c7565732c2064697363617264696e67206964656e746963616c7321,
  0x20202020202020207768696c6520547275653a,
  0x20202020202020202020202069662061203c20623a,
  0x202020202020202020202020202020206275666665722e617070656e64286129,
  0x2020202020202020202020202020202061203d2073656c662e6c6973745b695d,
  0x2020202020202020202020202020202069202b3d2031,
  0x202020202020202020202020656c69662062203c20613a,
  0x202020202020202020202020202020206275666665722e617070656e64286229,
  0x2020202020202020202020202020202062203d206f746865725b6a5d,
  0x202020202020202020202020202020206a202b3d2031,
  0x202020202020202020202020656c6966206120213d20554e49434f44455f5345545f484947483a20232061203d3d20622c206469736361726420626f7468,
  0x2020202020202020202020202020202061203d2073656c662e6c6973745b695d,
  0x2020202020202020202020202020202069202b3d2031,
  0x2020202020202020202020202020202062203d206f746865725b6a5d,
  0x202020202020202020202020202020206a202b3d2031,
  0x202020202020202020202020656c73653a202320646f6e6521,
  0x202020202020202020202020202020206275666665722e617070656e6428554e49434f44455f5345545f4849474829,
  0x20202020202020202020202020202020627265616b,
  0x0,
  0x202020202020202073656c662e6c697374203d20627566666572,
  0x202020202020202072657475726e2073656c66,
  0x0,
  0x20202020646566206164642873656c662c2063703a20696e74293a,
  0x20202020202020202222225c6e,
  0x20202020202020204164642074686520676976656e20636f646520706f696e7420746f2074686973207365742e,
  0x0,
  0x20202020202020203a706172616d2063703a2074686520636f646520706f696e7420746f206164642e,
  0x20202020202020203a72657475726e3a2073656c662c20746f20737570706f727420636861696e696e672e,
  0x2020202020202020222222,
  0x202020202020202069203d2073656c662e5f66696e64436f6465506f696e74285f70696e436f6465506f696e742863702929,
  0x0,
  0x20202020202020206966202869202620312920213d20303a,
  0x20202020202020202020202072657475726e2073656c66,
  0x0,
  0x20202020202020206966206370203d3d2073656c662e6c6973745b695d202d20313a,
  0x20202020202020202020202073656c662e6c6973745b695d203d206370,
  0x0,
  0x2020202020202020202020206966206370203d3d20554e49434f44455f5345545f48494748202d20313a,
  0x2020202020202020202020202020202073656c662e6c6973742e617070656e6428554e49434f44455f5345545f4849474829,
  0x0,
  0x20202020202020202020202069662069203e203020616e64206370203d3d2073656c662e6c6973745b692d315d3a,
  0x2020202020202020202020202020202064656c2073656c662e6c6973745b692d313a692b315d,
  0x0,
  0x2020202020202020656c69662069203e203020616e64206370203d3d2073656c662e6c6973745b692d315d3a,
  0x20202020202020202020202073656c662e6c6973745b692d315d202b3d2031,
  0x2020202020202020656c73653a,
  0x20202020202020202020202073656c662e6c6973745b693a695d203d205b63702c2063702b315d,
  0x0,
  0x202020202020202072657475726e2073656c66,
  0x0,
  0x202020206465662061646452616e67652873656c662c2073746172743a20696e742c20656e643a20696e74293a,
  0x20202020202020202222225c,
  0x20202020202020204164642074686520636f646520706f696e747320696e207468652072616e6765207374617274202d20656e6420696e636c757369766520746f2074686973207365742e,
  0x0,
  0x20202020202020203a706172616d2073746172743a2074686520666972737420636f646520706f696e7420696e207468652072616e676520746f206164642e,
  0x20202020202020203a706172616d20656e643a20746865206c61737420636f646520706f696e7420696e207468652072616e676520746f206164642e,
  0x20202020202020203a72657475726e3a2073656c662c20746f20737570706f727420636861696e696e672e,
  0x2020202020202020222222,
  0x20202020202020206966205f70696e436f6465506f696e7428737461727429203c205f70696e436f6465506f696e7428656e64293a,
  0x2020202020202020202020206c656e677468203d206c656e2873656c662e6c69737429,
  0x2020202020202020202020206c696d6974203d20656e64202b2031,
  0x0,
  0x202020202020202020202020232046617374207061746820666f7220616464696e672072616e676520616674657220746865206c617374206f6e65,
  0x202020202020202020202020696620286c656e677468202620312920213d20303a,
  0x202020202020202020202020202020206c6173744c696d6974203d202d32206966206c656e677468203d3d203120656c73652073656c662e6c6973745b2d325d,
  0x202020202020202020202020202020206966206c6173744c696d6974203c3d2073746172743a,
  0x20202020202020202020202020202020202020206966206c6173744c696d6974203d3d2073746172743a,
  0x20202020202020202020202020202020202020202020202073656c662e6c6973745b2d325d203d206c696d6974,
  0x2020202020202020202020202020202020202020202020206966206c696d6974203d3d20554e49434f44455f5345545f484947483a,
  0x2020202020202020202020202020202020202020202020202020202073656c662e6c6973742e706f702829,
  0x2020202020202020202020202020202020202020656c73653a,
  0x20202020202020202020202020202020202020202020202073656c662e6c6973745b2d315d203d207374617274,
  0x2020202020202020202020202020202020202020202020206966206c696d6974203c20554e49434f44455f5345545f484947483a,
  0x2020202020202020202020202020202020202020202020202020202073656c662e6c6973742e657874656e64285b6c696d69742c20554e49434f44455f5345545f484947485d29,
  0x202020202020202020202020202020202020202020202020656c73653a,
  0x2020202020202020202020202020202020202020202020202020202073656c662e6c6973742e617070656e6428554e49434f44455f5345545f4849474829,
  0x202020202020202020202020202020202020202072657475726e,
  0x0,
  0x20202020202020202020202023205468697320697320736c6f772e20436f756c64206265206d75636820666173746572207573696e672066696e64436f6465506f696e7428737461727429,
  0x2020202020202020202020202320616e64206d6f64696679696e6720746865206c6973742c206465616c696e6720776974682061646a6163656e742026206f7665726c617070696e672072616e6765732e,
  0x20202020202020202020202073656c662e5f6164644c697374285b73746172742c206c696d69742c20554e49434f44455f5345545f484947485d29,
  0x2020202020202020656c73653a,
  0x2020202020202020202020206966207374617274203d3d20656e643a,
  0x2020202020202020202020202020202073656c662e61646428737461727429,
  0x0,
  0x202020202020202072657475726e2073656c66,
  0x0,
  0x2020202064656620616464416c6c2873656c662c206f746865723a20556e69636f6465536574293a,
  0x20202020202020202222225c6e,
  0x20202020202020204164642074686520636f646520706f696e747320696e2074686520736574206f7468657220746f2074686973207365742e,
  0x0,
  0x20202020202020203a706172616d206f746865723a20746865207365742066726f6d20776869636820746f206164642e,
  0x20202020202020203a72657475726e3a2073656c662c20746f20737570706f727420636861696e696e672e,
  0x2020202020202020222222,
  0x202020202020202072657475726e2073656c662e5f6164644c697374286f746865722e6c69737429,
  0x0,
  0x202020206465662072656d6f766552616e67652873656c662c2073746172743a20696e742c20656e643a20696e74293a,
  0x20202020202020202222225c6e,
  0x202020202020202052656d6f76652074686520636f646520706f696e747320696e207468652072616e6765207374617274202d20656e6420696e636c75736976652066726f6d2074686973207365742e,
  0x0,
  0x20202020202020203a706172616d2073746172743a2074686520666972737420636f646520706f696e7420696e207468652072616e676520746f2072656d6f76652e,
  0x20202020202020203a706172616d20656e643a20746865206c61737420636f646520706f696e7420696e207468652072616e676520746f2072656d6f76652e,
  0x20202020202020203a72657475726e3a2073656c662c20746f20737570706f727420636861696e696e672e,
  0x2020202020202020222222,
  0x20202020202020206966205f70696e436f6465506f696e7428737461727429203c205f70696e436f6465506f696e7428656e64293a,
  0x2020202020202020202020206f74686572203d205b73746172742c20656e64202b20312c20554e49434f44455f5345545f484947485d,
  0x20202020202020202020202073656c662e5f72657461696e4c697374286f746865722c203229202320706f6c6172697479203d3d2032206d65616e7320736574206d696e7573,
  0x0,
  0x202020202020202072657475726e2073656c66,
  0x0,
  0x202020206465662072656d6f76652873656c662c2063703a20696e7429202d3e20556e69636f64655365743a,
  0x20202020202020202222225c6e,
  0x202020202020202052656d6f76652074686520676976656e20636f646520706f696e742066726f6d2074686973207365742e,
  0x0,
  0x20202020202020203a706172616d2063703a2074686520636f646520706f696e7420746f2072656d6f76652e,
  0x20202020202020203a72657475726e3a2073656c662c20746f20737570706f727420636861696e696e672e,
  0x2020202020202020222222,
  0x202020202020202072657475726e2073656c662e72656d6f766552616e67652863702c20637029,
  0x0,
  0x202020206465662072656d6f7665416c6c2873656c662c206f746865723a20556e69636f646553657429202d3e20556e69636f64655365743a,
  0x20202020202020202222225c6e,
  0x202020202020202052656d6f766520616c6c2074686520636f646520706f696e747320696e2074686520736574206f746865722066726f6d2074686973207365742e,
  0x0,
  0x20202020202020203a706172616d206f746865723a20746865207365742077686f736520636f646520706f696e74732073686f756c642062652072656d6f7665642e,
  0x20202020202020203a72657475726e3a2073656c662c20746f20737570706f727420636861696e696e672e,
  0x2020202020202020222222,
  0x202020202020202072657475726e2073656c662e5f72657461696e4c697374286f746865722e6c6973742c203229202320706f6c6172697479203d3d2032206d65616e7320736574206d696e7573,
  0x0,
  0x202020206465662072657461696e52616e67652873656c662c2073746172743a20696e742c20656e643a20696e74293a,
  0x20202020202020202222225c6e,
  0x2020202020202020496e7465727365742074686520636f646520706f696e747320696e207468652072616e6765207374617274202d20656e6420696e636c757369766520776974682074686973207365742e,
  0x0,
  0x20202020202020203a706172616d2073746172743a2074686520666972737420636f646520706f696e7420696e207468652072616e676520746f20696e746572736563742e,
  0x20202020202020203a706172616d20656e643a20746865206c61737420636f646520706f696e7420696e207468652072616e676520746f20696e746572736563742e,
  0x20202020202020203a72657475726e3a2073656c662c20746f20737570706f727420636861696e696e672e,
  0x2020202020202020222222,
  0x20202020202020206966205f70696e436f6465506f696e7428737461727429203c205f70696e436f6465506f696e7428656e64293a,
  0x2020202020202020202020206f74686572203d205b73746172742c20656e64202b20312c20554e49434f44455f5345545f484947485d,
  0x20202020202020202020202073656c662e5f72657461696e4c697374286f746865722c203029202320706f6c6172697479203d3d20303a20696e74657273656374,
  0x0,
  0x202020202020202072657475726e2073656c66,
  0x0,
  0x202020206465662072657461696e2873656c662c2063703a20696e74293a,
  0x20202020202020202222225c6e,
  0x2020202020202020496e746572736563742074686520676976656e20636f646520706f696e7420776974682074686973207365742e,
  0x0,
  0x20202020202020203a706172616d2063703a2074686520636f646520706f696e7420746f20696e7465727365637420776974682074686973207365742e,
  0x20202020202020203a72657475726e3a2073656c662c20746f20737570706f727420636861696e696e672e,
  0x2020202020202020222222,
  0x202020202020202072657475726e2073656c662e72657461696e52616e67652863702c20637029,
  0x0,
  0x202020206465662072657461696e416c6c2873656c662c206f746865723a20556e69636f6465536574293a,
  0x20202020202020202222225c6e,
  0x2020202020202020496e7465727365742074686520676976656e2073657420776974682074686973207365742e,
  0x0,
  0x20202020202020203a706172616d206f746865723a2074686520736574207769746820776869636820746f20696e746572736563742e,
  0x20202020202020203a72657475726e3a2073656c662c20746f20737570706f727420636861696e696e672e,
  0x2020202020202020222222,
  0x202020202020202072657475726e2073656c662e5f72657461696e4c697374286f746865722e6c6973742c203029202320706f6c6172697479203d3d2030206d65616e7320696e74657273656374,
  0x0,
  0x2020202064656620636f6d706c656d656e7452616e67652873656c662c2073746172743a20696e742c20656e643a20696e74293a,
  0x20202020202020202222225c6e,
  0x2020202020202020436f6d706c656d656e747320746865207370656369666965642072616e6765206f6620636f646520706f696e747320696e2074686973207365742e20416e79,
  0x2020202020202020636f646520706f696e7420696e207468652072616e67652077696c6c2062652072656d6f76656420696620697420697320696e20746865207365742c206f722077696c6c,
  0x20202020202020206265206164646564206966206974206e6f7420696e20746865207365742e20496620656e64203c2073746172742c207468656e207468652072616e676520697320656d707479,
  0x2020202020202020616e6420746865207365742077696c6c206e6f74206265206368616e6765642e,
  0x0,
  0x20202020202020203a706172616d2073746172743a2074686520666972737420636f646520706f696e7420696e207468652072616e67652e,
  0x20202020202020203a706172616d20656e643a20746865206c61737420636f646520706f696e7420696e207468652072616e67652e,
  0x20202020202020203a72657475726e3a2073656c662c20746f20737570706f727420636861696e696e672e,
  0x2020202020202020222222,
  0x20202020202020206966205f70696e436f6465506f696e7428737461727429203c205f70696e436f6465506f696e7428656e64293a,
  0x2020202020202020202020206f74686572203d205b73746172742c20656e64202b20312c20554e49434f44455f5345545f484947485d,
  0x20202020202020202020202073656c662e5f6578636c75736976654f724c697374286f7468657229,
  0x0,
  0x202020202020202072657475726e2073656c66,
  0x0,
  0x2020202064656620636f6d706c656d656e742873656c662c206172673a20747970696e672e556e696f6e5b696e742c2072616e67652c204e6f6e655d203d204e6f6e65293a,
  0x20202020202020202222225c6e,
  0x2020202020202020436f6d706c656d656e742074686973207365742c206261736564206f6e207468652074797065206f66206172672e,
  0x0,
  0x2020202020202020617267206973204e6f6e653a20636f6d706c656d656e74207468652077686f6c65207365742e5c6e,
  0x202020202020202061726720697320616e20696e743a20636f6d706c656d656e742074686520676976656e20636f646520706f696e742e5c6e,
  0x202020202020202061726720697320612072616e67653a20636f6d706c656d656e742074686520636f646520706f696e747320696e207468652072616e67652e,
  0x0,
  0x20202020202020203a706172616d206172673a207468652061726775656d656e742c206173206465736372696265642061626f76652e202864656661756c74206973204e6f6e6529,
  0x20202020202020203a72657475726e3a2073656c662c20746f20737570706f727420636861696e696e672e,
  0x2020202020202020222222,
  0x2020202020202020696620617267206973204e6f6e653a,
  0x20202020202020202020202069662073656c662e6c6973745b305d203d3d20554e49434f44455f5345545f4c4f573a,
  0x2020202020202020202020202020202073656c662e6c697374203d2073656c662e6c6973745b313a5d,
  0x202020202020202020202020656c73653a,
  0x2020202020202020202020202020202073656c662e6c6973745b303a305d203d205b554e49434f44455f5345545f4c4f575d,
  0x2020202020202020656c69662074797065286172672920697320696e743a,
  0x20202020202020202020202073656c662e636f6d706c656d656e7452616e6765286172672c2061726729,
  0x2020202020202020656c6966207479706528617267292069732072616e67653a,
  0x20202020202020202020202073656c662e636f6d706c656d656e7452616e6765286172672e73746172742c206172672e73746f70202d203129,
  0x2020202020202020656c73653a,
  0x202020202020202020202020726169736528547970654572726f722822417267756d656e742074797065206d75737420626520696e74206f722072616e67652e222929,
  0x0,
  0x202020202020202072657475726e2073656c66,
  0x0,
  0x2020202064656620636f6d706c656d656e74416c6c2873656c662c206f746865723a20556e69636f6465536574293a,
  0x20202020202020202222225c6e,
  0x2020202020202020436f6d706c656d656e7420616c6c2074686520636f646520706f696e747320696e2074686520736574206f7468657220696e2074686973207365742e,
  0x0,
  0x20202020202020203a706172616d206f746865723a20746865206f74686572207365742e,
  0x20202020202020203a72657475726e3a2073656c662c20746f20737570706f727420636861696e696e672e,
  0x2020202020202020222222,
  0x202020202020202072657475726e2073656c662e5f6578636c75736976654f724c697374286f746865722e6c69737429,
  0x0,
  0x2020202064656620636c6561722873656c66293a,
  0x202020202020202022222252656d6f766520616c6c20636f646520706f696e74732066726f6d2074686973207365742e222222,
  0x202020202020202073656c662e6c697374203d205b554e49434f44455f5345545f484947485d,
  0x202020202020202072657475726e2073656c66,
  0x0,
  0x2020202064656620636f6e7461696e732873656c662c206172673a20747970696e672e556e696f6e5b696e742c2072616e67655d293a,
  0x20202020202020202222225c6e,
  0x2020202020202020436865636b20696620746869732073657420636f6e7461696e732074686520636f646520706f696e747320737065636966696564206279206172672e,
  0x0,
  0x202020202020202061726720697320616e20696e743a2073656520696620746869732073657420636f6e7461696e732074686520676976656e20636f646520706f696e746e,
  0x202020202020202061726720697320612072616e67653a2073656520696620746869732073657420636f6e7461696e7320616c6c2074686520636f646520706f696e747320696e2074686520676976656e2072616e67652e5c6e,
  0x0,
  0x20202020202020203a706172616d206172673a2074686520636f646520706f696e742c206f722072616e6765206f6620636f646520706f696e74732c206173206465736372696265642061626f76652e,
  0x20202020202020203a72657475726e3a2054727565206966207468652073657420636f6e74616e732074686520636f646520706f696e742873292c2046616c7365206f74686572776973652e,
  0x2020202020202020222222,
  0x202020202020202069662074797065286172672920697320696e743a,
  0x20202020202020202020202069203d2073656c662e5f66696e64436f6465506f696e742861726729,
  0x20202020202020202020202072657475726e202869202620312920213d2030,
  0x2020202020202020656c6966207479706528617267292069732072616e67653a,
  0x2020202020202020202020207374617274203d206172672e7374617274,
  0x202020202020202020202020656e64203d206172672e73746f70202d2031,
  0x20202020202020202020202069203d2073656c662e5f66696e64436f6465506f696e7428737461727429,
  0x20202020202020202020202072657475726e202869202620312920213d203020616e6420656e64203c2073656c662e6c6973745b695d,
  0x2020202020202020656c73653a,
  0x202020202020202020202020726169736528547970654572726f722822417267756d656e742074797065206d75737420626520696e74206f722072616e67652e222929,
  0x0,
  0x2020202023207468657365206d61746368206f7065726174696f6e7320666f7220507974686f6e27732073657420747970652e,
  0x2020202064656620756e696f6e2873656c662c206f746865723a20556e69636f6465536574293a,
  0x20202020202020202222225c6e,
  0x202020202020202052657475726e2074686520756e696f6e206f6620746869732073657420616e64206f746865722e,
  0x0,
  0x20202020202020203a706172616d206f746865723a2074686520736574207769746820776869636820746f20756e696f6e2074686973207365742e,
  0x20202020202020203a72657475726e3a2074686520756e696f6e206f66207468652074776f20736574732e,
  0x2020202020202020222222,
  0x2020202020202020726573756c74203d20556e69636f64655365742873656c6629,
  0x202020202020202072657475726e20726573756c742e616464416c6c286f7468657229,
  0x0,
  0x2020202064656620696e74657273656374696f6e2873656c662c206f746865723a20556e69636f6465536574293a,
  0x20202020202020202222225c6e,
  0x202020202020202052657475726e2074686520696e74657273656374696f6e206f6620746869732073657420616e64206f746865722e,
  0x0,
  0x20202020202020203a706172616d206f746865723a2074686520736574207769746820776869636820746f20696e746572736563742074686973207365742e,
  0x20202020202020203a72657475726e3a2074686520696e74657273656374696f6e206f66207468652074776f20736574732e,
  0x2020202020202020222222,
  0x2020202020202020726573756c74203d20556e69636f64655365742873656c6629,
  0x202020202020202072657475726e20726573756c742e72657461696e416c6c286f7468657229,
  0x0,
  0x2020202064656620646966666572656e63652873656c662c206f746865723a20556e69636f6465536574293a,
  0x20202020202020202222225c6e,
  0x202020202020202052657475726e2074686520646966666572656e6365206f6620746869732073657420616e64206f746865722e,
  0x0,
  0x20202020202020203a706172616d206f746865723a207468652073657420746f2072656d6f76652066726f6d2074686973207365742e,
  0x20202020202020203a72657475726e3a2074686520646966666572656e6365206f66207468652074776f20736574732e,
  0x2020202020202020222222,
  0x2020202020202020726573756c74203d20556e69636f64655365742873656c6629,
  0x202020202020202072657475726e20726573756c742e72656d6f7665416c6c286f7468657229,
  0x0,
  0x202020206465662073796d6d65747269635f646966666572656e63652873656c662c206f746865723a20556e69636f6465536574293a,
  0x20202020202020202222225c6e,
  0x202020202020202052657475726e2074686520786f72206f6620746869732073657420616e64206f746865722e,
  0x0,
  0x20202020202020203a706172616d206f746865723a2074686520736574207769746820776869636820746f20786f722074686973207365742e,
  0x20202020202020203a72657475726e3a2074686520786f72206f66207468652074776f20736574732e,
  0x2020202020202020222222,
  0x2020202020202020726573756c74203d20556e69636f64655365742873656c6629,
  0x202020202020202072657475726e20726573756c742e636f6d706c656d656e74416c6c286f7468657229,
  0x0,
  0x20202020646566205f5f65715f5f2873656c662c206f746865723a206f626a656374293a,
  0x20202020202020206f74686572536574203d20747970696e672e6361737428556e69636f64655365742c206f7468657229,
  0x202020202020202072657475726e2073656c662e6c697374203d3d206f746865725365742e6c697374,
  0x0,
  0x20202020646566205f5f6e655f5f2873656c662c206f746865723a206f626a656374293a,
  0x202020202020202072657475726e206e6f742073656c66203d3d206f74686572,
  0x0,
  0x20202020646566205f5f6f725f5f2873656c662c206f746865723a20556e69636f6465536574293a,
  0x20202020202020202222224f70657261746f72206f7665726c6f61643a207c20697320756e696f6e2e222222,
  0x202020202020202072657475726e2073656c662e756e696f6e286f7468657229,
  0x0,
  0x20202020646566205f5f616e645f5f2873656c662c206f746865723a20556e69636f6465536574293a,
  0x20202020202020202222224f70657261746f72206f7665726c6f61643a202620697320696e74657273656374696f6e2e222222,
  0x202020202020202072657475726e2073656c662e696e74657273656374696f6e286f7468657229,
  0x0,
  0x20202020646566205f5f7375625f5f2873656c662c206f746865723a20556e69636f6465536574293a,
  0x20202020202020202222224f70657261746f72206f7665726c6f61643a202d2069732073657420646966666572656e63652e222222,
  0x202020202020202072657475726e2073656c662e646966666572656e6365286f7468657229,
  0x0,
  0x20202020646566205f5f786f725f5f2873656c662c206f746865723a20556e69636f6465536574293a,
  0x20202020202020202222224f70657261746f72206f7665726c6f61643a205e2069732073657420786f722e222222,
  0x202020202020202072657475726e2073656c662e73796d6d65747269635f646966666572656e6365286f7468657229,
  0x0,
  0x20202020646566205f5f697375625f5f2873656c662c206f746865723a20556e69636f646553657429202d3e20556e69636f64655365743a,
  0x202020202020202072657475726e2073656c662e72656d6f7665416c6c286f7468657229,
  0x0,
  0x20202020646566205f5f69616e645f5f2873656c662c206f746865723a20556e69636f6465536574293a,
  0x202020202020202072657475726e2073656c662e72657461696e416c6c286f7468657229,
  0x0,
  0x20202020646566205f5f696f725f5f2873656c662c206f746865723a20556e69636f6465536574293a,
  0x202020202020202072657475726e2073656c662e616464416c6c286f7468657229,
  0x0,
  0x20202020646566205f5f69786f725f5f2873656c662c206f746865723a20556e69636f6465536574293a,
  0x202020202020202072657475726e2073656c662e636f6d706c656d656e74416c6c286f7468657229,
  0x0,
  0x20202020646566205f5f636f6e7461696e735f5f2873656c662c206172673a20747970696e672e556e696f6e5b696e742c2072616e67655d293a,
  0x20202020202020202222224f70657261746f72206f7665726c6f61643a20696e20697320636f6e7461696e732e222222,
  0x202020202020202072657475726e2073656c662e636f6e7461696e732861726729,
  0x0,
  0x20202020232054203d20747970696e672e54797065566172282254222c2027556e69636f6465536574272c20696e742c2072616e676529,
  0x20202020646566205f5f696e69745f5f2873656c662c206172673a20747970696e672e556e696f6e5b72616e67652c20696e742c20556e69636f64655365742c204e6f6e655d203d204e6f6e65293a,
  0x20202020202020202222222f,
  0x2020202020202020496e697469616c697a652061207365742c206261736564206f6e207468652074797065206f66206172673a5c6e,
  0x2020202020202020617267203d3d204e6f6e653a206d616b6520616e20656d707479207365745c6e,
  0x2020202020202020617267206973206120556e69636f64655365743a206d616b6520612073657420636f6e7461696e67207468652073616d6520656c656d656e7473206173206172675c6e,
  0x202020202020202061726720697320616e20696e743a206d616b6520612073657420636f6e7461696e696e67207468652073696e676c6520636f646520706f696e745c6e,
  0x202020202020202061726720697320612072616e67653a206d616b6520612073657420636f6e7461696e696e672074686520636f646520706f696e747320696e206172675c6e,
  0x0,
  0x20202020202020203a706172616d206172673a2074686520617267756d656e74202864656661756c74203d204e6f6e6529,
  0x2020202020202020222222,
  0x2020202020202020696620617267206973204e6f6e653a,
  0x20202020202020202020202073656c662e6c6973743a206c6973745b696e745d203d205b554e49434f44455f5345545f484947485d,
  0x2020202020202020656c69662074797065286172672920697320556e69636f64655365743a,
  0x20202020202020202020202073656c662e6c697374203d206172672e6c6973742e636f70792829,
  0x2020202020202020656c69662074797065286172672920697320696e743a,
  0x20202020202020202020202073656c662e6c697374203d205b6172672c20617267202b20312c20554e49434f44455f5345545f484947485d,
  0x2020202020202020656c6966207479706528617267292069732072616e67653a,
  0x20202020202020202020202073656c662e6c697374203d205b6172672e73746172742c206172672e73746f702c20554e49434f44455f5345545f484947485d,
  0x2020202020202020656c73653a,
  0x202020202020202020202020726169736528547970654572726f722822417267756d656e742074797065206d75737420626520556e69636f64655365742c20696e74206f722072616e67652e222929,
  0x0,
  0x202020206465662073697a652873656c66293a,
  0x202020202020202022222252657475726e20746865206e756d626572206f6620636f646520706f696e747320696e2074686973207365742e222222,
  0x202020202020202073203d2030,
  0x0,
  0x2020202020202020666f7220696e64657820696e2072616e67652873656c662e67657452616e6765436f756e742829293a,
  0x2020202020202020202020207374617274203d2073656c662e67657452616e6765537461727428696e64657829,
  0x202020202020202020202020656e64203d2073656c662e67657452616e6765456e6428696e64657829,
  0x20202020202020202020202073202b3d20656e64202d207374617274202b2031,
  0x0,
  0x202020202020202072657475726e2073,
  0x0,
  0x202020206465662067657452616e6765436f756e742873656c6629202d3e20696e743a,
  0x202020202020202022222252657475726e20746865206e756d626572206f6620636f646520706f696e742072616e67657320696e2074686973207365742e222222,
  0x202020202020202072657475726e206c656e2873656c662e6c69737429202f2f2032,
  0x0,
  0x202020206465662067657452616e676553746172742873656c662c20696e6465783a20696e7429202d3e20696e743a,
  0x20202020202020202222225c6e,
  0x202020202020202047657420746865207374617274696e6720636f646520706f696e74206f662074686520676976656e2072616e67652e,
  0x0,
  0x20202020202020203a706172616d20696e6465783a2074686520696e646578206f66207468652072616e67652e204d757374206265206c657373207468616e2067657452616e6765436f756e7428292e,
  0x20202020202020203a72657475726e3a20746865207374617274696e6720636f646520706f696e74206f66207468652072616e67652e,
  0x2020202020202020222222,
  0x202020202020202072657475726e2073656c662e6c6973745b696e646578202a20325d,
  0x0,
  0x202020206465662067657452616e6765456e642873656c662c20696e6465783a20696e7429202d3e20696e743a,
  0x20202020202020202222225c6e,
  0x20202020202020204765742074686520656e64696e6720636f646520706f696e74206f662074686520676976656e2072616e67652e,
  0x0,
  0x20202020202020203a706172616d20696e6465783a2074686520696e646578206f66207468652072616e67652e204d757374206265206c657373207468616e2067657452616e6765436f756e7428292e,
  0x20202020202020203a72657475726e3a2074686520656e64696e6720636f646520706f696e74206f66207468652072616e67652e,
  0x2020202020202020222222,
  0x202020202020202072657475726e2073656c662e6c6973745b696e646578202a2032202b20315d202d2031,
  0x0,
  0x2020202064656620696e6465784f662873656c662c2063703a20696e7429202d3e20747970696e672e4f7074696f6e616c5b696e745d3a,
  0x20202020202020202222225c,
  0x202020202020202052657475726e2074686520696e646578206f662074686520676976656e20636f646520706f696e742077697468696e20746865207365742c,
  0x202020202020202077686572652074686520736574206973206f72646572656420627920617363656e64696e6720636f646520706f696e742e,
  0x0,
  0x20202020202020203a706172616d2063703a2074686520636f646520706f696e742e,
  0x20202020202020203a72657475726e3a2074686520696e646578206f72204e6f6e652069662074686520636f646520706f696e74206973206e6f7420696e20746865207365742e,
  0x2020202020202020222222,
  0x0,
  0x20202020202020206966206370203c20554e49434f44455f5345545f4c4f57206f72206370203e20554e49434f44455f5345545f484947483a,
  0x20202020202020202020202072657475726e204e6f6e65,
  0x0,
  0x20202020202020202320746865206c617267657374206576656e20696e7465676572203c3d20746865206c656e677468206f6620746865206c697374,
  0x20202020202020206c656e32203d206c656e2873656c662e6c697374292026207e31,
  0x20202020202020206e203d2030,
  0x0,
  0x2020202020202020666f72206920696e2072616e676528302c206c656e322c2032293a,
  0x2020202020202020202020207374617274203d2073656c662e6c6973745b695d,
  0x0,
  0x2020202020202020202020206966206370203c2073746172743a,
  0x20202020202020202020202020202020627265616b,
  0x0,
  0x2020202020202020202020206c696d6974203d2073656c662e6c6973745b692b315d,
  0x0,
  0x2020202020202020202020206966206370203c206c696d69743a,
  0x2020202020202020202020202020202072657475726e206e202b206370202d207374617274,
  0x0,
  0x2020202020202020202020206e202b3d206c696d6974202d207374617274,
  0x0,
  0x202020202020202072657475726e204e6f6e65,
  0x0,
  0x20202020646566206368617241742873656c662c20696e6465783a20696e7429202d3e20747970696e672e4f7074696f6e616c5b696e745d3a,
  0x20202020202020202222225c,
  0x202020202020202052657475726e2074686520636f646520706f696e742061742074686520676976656e20696e6465782077697468696e20746865207365742c,
  0x202020202020202077686572652074686520736574206973206f72646572656420627920617363656e64696e6720636f646520706f696e742e,
  0x0,
  0x20202020202020203a706172616d20696e6465783a2074686520696e6465782e,
  0x20202020202020203a72657475726e3a2074686520636f646520706f696e742061742074686520676976656e20696e646578206f72204e6f6e652e,
  0x2020202020202020222222,
  0x0,
  0x2020202020202020696620696e646578203e3d20303a,
  0x2020202020202020202020202320746865206c617267657374206576656e20696e7465676572203c3d20746865206c656e677468206f6620746865206c697374,
  0x2020202020202020202020206c656e32203d206c656e2873656c662e6c697374292026207e31,
  0x202020202020202020202020666f72206920696e2072616e676528302c206c656e322c2032293a,
  0x202020202020202020202020202020207374617274203d2073656c662e6c6973745b695d,
  0x20202020202020202020202020202020636f756e74203d2073656c662e6c6973745b692b315d202d207374617274,
  0x20202020202020202020202020202020696620696e646578203c20636f756e743a,
  0x202020202020202020202020202020202020202072657475726e207374617274202b20696e646578,
  0x20202020202020202020202020202020696e646578202d3d20636f756e74,
  0x0,
  0x202020202020202072657475726e204e6f6e65,
  0x0,
  0x20202020646566205f5f7374725f5f2873656c6629202d3e207374723a,
  0x202020202020202022222252657475726e2074686520636f646520706f696e74206c697374206173206120737472696e672e222222,
  0x0,
  0x20202020202020207069656365733a206c6973745b7374725d203d205b5d,
  0x0,
  0x2020202020202020666f7220637020696e2073656c662e6c6973743a,
  0x2020202020202020202020207069656365732e617070656e6428662230787b63703a3034587d2229,
  0x0,
  0x202020202020202073203d20222c20222e6a6f696e2870696563657329,
  0x0,
  0x202020202020202072657475726e2066225b7b737d5d22,
  0x0,
  0x202020206465662064756d702873656c66293a,
  0x20202020202020202222225072696e742074686520636f646520706f696e742072616e6765206c6973742e222222,
  0x20202020202020207072696e742873656c6629,
  0x0,
  0x202020206465662067657452616e6765732873656c66293a,
  0x202020202020202022222252657475726e20746865206c697374206f6620636f646520706f696e742072616e67657320696e20746865207365742e222222,
  0x202020202020202072616e6765733a206c6973745b72616e67655d203d205b5d,
  0x2020202020202020666f72206920696e2072616e676528302c206c656e2873656c662e6c69737429202d20312c2032293a,
  0x20202020202020202020202072616e6765732e617070656e642872616e67652873656c662e6c6973745b695d2c2073656c662e6c6973745b692b315d2929,
  0x0,
  0x202020202020202072657475726e2072616e676573,
  0x0,
  0x20202020646566205f5f697465725f5f2873656c66293a,
  0x2020202020202020666f72206920696e2072616e676528302c206c656e2873656c662e6c69737429202d20312c2032293a,
  0x202020202020202020202020666f7220637020696e2072616e67652873656c662e6c6973745b695d2c2073656c662e6c6973745b692b315d293a,
  0x202020202020202020202020202020207969656c64206370,
  0x0]

/-- UnicodeData/CharNames.py:1-489 the lines of the file. -/
def CharNames : List Nat :=
 [0x2222225c,
  0x4261736564206f6e2075636861722e6370702066726f6d20494355,
  0x0,
  0x43726561746564206f6e204d61792031352c2032303230,
  0x0,
  0x40617574686f722045726963204d61646572,
  0x222222,
  0x0,
  0x696d706f727420747970696e67,
  0x0,
  0x696d706f727420737472756374,
  0x66726f6d20666f6e74546f6f6c732e6d69736320696d706f7274207373747275637420202320747970653a2069676e6f7265,
  0x0,
  0x66726f6d202e4943554461746146696c6520696d706f72742049435544617461,
  0x66726f6d202e4368617250726f707320696d706f72742067657447656e6572616c43617465676f7279,
  0x66726f6d202e47656e6572616c43617465676f7269657320696d706f72742047435f535552524f474154452c2047435f43415445464f52595f434f554e54,
  0x66726f6d202e5574696c697469657320696d706f72742069734c6561642c206973556e69636f64654e6f6e636861726163746572,
  0x0,
  0x2320226578747261222067656e6572616c2063617465676f72696573,
  0x47435f4e4f4e4348415241435445525f434f4445504f494e54203d2047435f43415445464f52595f434f554e54,
  0x47435f4c4541445f535552524f47415445203d2047435f43415445464f52595f434f554e54202b2031,
  0x47435f545241494c5f535552524f47415445203d2047435f43415445464f52595f434f554e54202b2032,
  0x0,
  0x636861724361744e616d6573203d205b,
  0x2020202022756e61737369676e6564222c,
  0x2020202022757070657263617365206c6574746572222c,
  0x20202020226c6f77657263617365206c6574746572222c,
  0x20202020227469746c6563617365206c6574746572222c,
  0x20202020226d6f646966696572206c6574746572222c,
  0x20202020226f74686572206c6574746572222c,
  0x20202020226e6f6e2073706163696e67206d61726b222c,
  0x2020202022656e636c6f73696e67206d61726b222c,
  0x2020202022636f6d62696e696e672073706163696e67206d61726b222c,
  0x2020202022646563696d616c206469676974206e756d626572222c,
  0x20202020226c6574746572206e756d626572222c,
  0x20202020226f74686572206e756d626572222c,
  0x2020202022737061636520736570617261746f72222c,
  0x20202020226c696e6520736570617261746f72222c,
  0x202020202270617261677261706820736570617261746f72222c,
  0x2020202022636f6e74726f6c222c,
  0x2020202022666f726d6174222c,
  0x202020202270726976617465207573652061726561222c,
  0x2020202022737572726f67617465222c,
  0x2020202022646173682070756e6374756174696f6e222c,
  0x202020202273746172742070756e6374756174696f6e222c,
  0x2020202022656e642070756e6374756174696f6e222c,
  0x2020202022636f6e6e6563746f722070756e6374756174696f6e222c,
  0x20202020226f746865722070756e6374756174696f6e222c,
  0x20202020226d6174682073796d626f6c222c,
  0x202020202263757272656e63792073796d626f6c222c,
  0x20202020226d6f6469666965722073796d626f6c222c,
  0x20202020226f746865722073796d626f6c222c,
  0x2020202022696e697469616c2070756e6374756174696f6e222c,
  0x202020202266696e616c2070756e6374756174696f6e222c,
  0x20202020226e6f6e636861726163746572222c,
  0x20202020226c65616420737572726f67617465222c,
  0x2020202022747261696c20737572726f6761746522,
  0x5d,
  0x0,
  0x2320436861726163746572206e616d652063686f69636573,
  0x555f554e49434f44455f434841525f4e414d45203d203020202320556e69636f646520636861726163746572206e616d6520284e616d652070726f7065727479292e,
  0x0,
  0x232054686520556e69636f64655f315f4e616d652070726f70657274792076616c7565207768696368206973206f66206c6974746c652070726163746963616c2076616c75652e,
  0x2320426567696e6e696e672077697468204943552034392c2049435520415049732072657475726e20616e20656d70747920737472696e6720666f722074686973206e616d652063686f6963652e,
  0x555f554e49434f44455f31305f434841525f4e414d45203d2031,
  0x0,
  0x555f455854454e4445445f434841525f4e414d45203d2032202023205374616e64617264206f722073796e74686574696320636861726163746572206e616d652e,
  0x555f434841525f4e414d455f414c494153203d203320202320436f72726563746564206e616d652066726f6d204e616d65416c69617365732e7478742e,
  0x555f434841525f4e414d455f43484f4943455f434f554e54203d2034,
  0x0,
  0x555f49534f5f434f4d4d454e54203d20555f434841525f4e414d455f43484f4943455f434f554e54,
  0x0,
  0x47524f55505f5348494654203d2035,
  0x4c494e45535f5045525f47524f5550203d2031203c3c2047524f55505f5348494654,
  0x47524f55505f4d41534b203d204c494e45535f5045525f47524f5550202d2031,
  0x0,
  0x47524f55505f4d5342203d2030,
  0x47524f55505f4f46465345545f48494748203d2031,
  0x47524f55505f4f46465345545f4c4f57203d2032,
  0x47524f55505f4c454e475448203d2033,
  0x0,
  0x43505f53454d49434f4c4f4e203d206f726428273b2729,
  0x0,
  0x636c617373204e616d6544617461486561646572286f626a656374293a,
  0x2020202023205f5f736c6f74735f5f203d205b22746f6b656e537472696e674f6666736574222c202267726f7570734f6666736574222c202267726f7570537472696e674f6666736574222c2022616c674e616d65734f6666736574225d,
  0x0,
  0x20202020646566205f5f696e69745f5f2873656c6629202d3e204e6f6e653a,
  0x202020202020202073656c662e746f6b656e537472696e674f6666736574203d2030,
  0x202020202020202073656c662e67726f7570734f6666736574203d2030,
  0x202020202020202073656c662e67726f7570537472696e674f6666736574203d2030,
  0x202020202020202073656c662e616c674e616d65734f6666736574203d2030,
  0x0,
  0x5f6e616d6544617461486561646572466f726d6174203d2022746f6b656e537472696e674f66667365743a20493b2067726f7570734f66667365743a20493b2067726f7570537472696e674f66667365743a20493b20616c674e616d65734f66667365743a204922,
  0x5f6e616d65446174614865616465724c656e677468203d20737374727563742e63616c6373697a65285f6e616d6544617461486561646572466f726d617429,
  0x0,
  0x636c61737320416c6752616e6765286f626a656374293a,
  0x2020202023205f5f736c6f74735f5f203d205b227374617274222c2022656e64222c202274797065222c202276617269616e74222c202273697a65225d,
  0x0,
  0x20202020646566205f5f696e69745f5f2873656c6629202d3e204e6f6e653a,
  0x202020202020202073656c662e7374617274203d2030,
  0x202020202020202073656c662e656e64203d2030,
  0x202020202020202073656c662e74797065203d2030,
  0x202020202020202073656c662e76617269616e74203d2030,
  0x202020202020202073656c662e73697a65203d2030,
  0x0,
  0x5f72616e6765466f726d6174203d202273746172743a20493b20656e643a20493b20747970653a20423b2076617269616e743a20423b2073697a653a204822,
  0x5f72616e67654c656e677468203d20737374727563742e63616c6373697a65285f72616e6765466f726d617429,
  0x0,
  0x636c61737320546f6b656e73286f626a656374293a,
  0x202020205f746f6b656e733a20747970696e672e53657175656e63655b696e745d203d205b5d,
  0x202020205f737472696e67733a20747970696e672e53657175656e63655b696e745d203d205b5d,
  0x0,
  0x2020202040636c6173736d6574686f64,
  0x2020202064656620706f70756c6174654461746128636c732c20696375446174613a20494355446174612c20746f6b656e7353746172743a20696e742c20746f6b656e537472696e677353746172743a20696e742c20746f6b656e537472696e67734c696d69743a20696e74293a,
  0x20202020202020206966206c656e28636c732e5f746f6b656e7329203d3d20303a,
  0x20202020202020202020202028746f6b656e436f756e742c2029203d207374727563742e756e7061636b282248222c20696375446174612e6765744461746128746f6b656e7353746172742c20746f6b656e735374617274202b20322929,
  0x202020202020202020202020746f6b656e7344617461203d20696375446174612e6765744461746128746f6b656e735374617274202b20322c20746f6b656e537472696e6773537461727429,
  0x202020202020202020202020636c732e5f746f6b656e73203d207374727563742e756e7061636b2866227b746f6b656e436f756e747d48222c20746f6b656e734461746129,
  0x0,
  0x202020202020202020202020636c732e5f737472696e6773203d20696375446174612e6765744461746128746f6b656e537472696e677353746172742c20746f6b656e537472696e67734c696d697429,
  0x0,
  0x2020202040636c6173736d6574686f64,
  0x2020202064656620657870616e64537472696e6728636c732c20737472696e673a20747970696e672e53657175656e63655b696e745d2c206e616d6543686f6963653a20696e74293a,
  0x2020202020202020657870616e6465644e616d65203d202222,
  0x0,
  0x20202020202020206e616d654c656e677468203d206c656e28737472696e6729,
  0x0,
  0x202020202020202073203d2030,
  0x20202020202020207768696c65206e616d654c656e677468203e20303a,
  0x20202020202020202020202063203d20737472696e675b735d,
  0x20202020202020202020202073202b3d2031,
  0x2020202020202020202020206e616d654c656e677468202d3d2031,
  0x0,
  0x20202020202020202020202069662063203e3d206c656e28636c732e5f746f6b656e73293a,
  0x202020202020202020202020202020206966206320213d2043505f53454d49434f4c4f4e3a,
  0x2020202020202020202020202020202020202020657870616e6465644e616d65202b3d20636872286329,
  0x20202020202020202020202020202020656c73653a,
  0x2020202020202020202020202020202020202020627265616b,
  0x202020202020202020202020656c73653a,
  0x20202020202020202020202020202020746f6b656e203d20636c732e5f746f6b656e735b635d,
  0x20202020202020202020202020202020696620746f6b656e203d3d203078464646453a,
  0x20202020202020202020202020202020202020202320746869732069732061206c656164206279746520666f72206120646f75626c652d6279746520746f6b656e,
  0x2020202020202020202020202020202020202020746f6b656e203d20636c732e5f746f6b656e735b63203c3c2038207c20737472696e675b735d5d,
  0x202020202020202020202020202020202020202073202b3d2031,
  0x20202020202020202020202020202020202020206e616d654c656e677468202d3d2031,
  0x0,
  0x20202020202020202020202020202020696620746f6b656e203d3d203078464646463a,
  0x20202020202020202020202020202020202020206966206320213d2043505f53454d49434f4c4f4e3a,
  0x202020202020202020202020202020202020202020202020657870616e6465644e616d65202b3d20636872286329,
  0x2020202020202020202020202020202020202020656c73653a,
  0x2020202020202020202020202020202020202020202020206966206c656e28657870616e6465644e616d6529203d3d203020616e64206e616d6543686f696365203d3d20555f455854454e4445445f434841525f4e414d453a,
  0x2020202020202020202020202020202020202020202020202020202069662043505f53454d49434f4c4f4e203e3d206c656e28636c732e5f746f6b656e7329206f7220636c732e5f746f6b656e735b43505f53454d49434f4c4f4e5d203d3d203078464646463a,
  0x2020202020202020202020202020202020202020202020202020202020202020636f6e74696e7565,
  0x202020202020202020202020202020202020202020202020627265616b,
  0x20202020202020202020202020202020656c73653a,
  0x20202020202020202020202020202020202020207768696c6520636c732e5f737472696e67735b746f6b656e5d20213d20303a,
  0x202020202020202020202020202020202020202020202020657870616e6465644e616d65202b3d2063687228636c732e5f737472696e67735b746f6b656e5d29,
  0x202020202020202020202020202020202020202020202020746f6b656e202b3d2031,
  0x0,
  0x202020202020202072657475726e20657870616e6465644e616d65,
  0x0,
  0x202020202320646566205f5f696e69745f5f2873656c662c20746f6b656e7353746172743a20696e742c20746f6b656e537472696e677353746172743a20696e742c20746f6b656e537472696e67734c696d69743a20696e74293a,
  0x20202020232020202020546f6b656e732e706f70756c6174654461746128746f6b656e7353746172742c20746f6b656e537472696e677353746172742c20746f6b656e537472696e67734c696d697429,
  0x0,
  0x0,
  0x0,
  0x636c6173732047726f7570286f626a656374293a,
  0x202020205f67726f7570466f726d6174203d20226d73623a20483b206f6666736574486967683a20483b206f66667365744c6f773a204822,
  0x202020205f67726f75704c656e677468203d20737374727563742e63616c6373697a65285f67726f7570466f726d617429,
  0x0,
  0x20202020636c617373205f47726f75704f626a656374286f626a656374293a,
  0x202020202020202023205f5f736c6f74735f5f203d205b226d7362222c20226f666673657448696768222c20226f66667365744c6f77225d,
  0x0,
  0x2020202020202020646566205f5f696e69745f5f2873656c6629202d3e204e6f6e653a,
  0x20202020202020202020202073656c662e6d7362203d2030,
  0x20202020202020202020202073656c662e6f666673657448696768203d2030,
  0x20202020202020202020202073656c662e6f66667365744c6f77203d2030,
  0x0,
  0x2020202040636c6173736d6574686f64,
  0x202020206465662067726f75704c656e67746828636c7329202d3e696e743a,
  0x202020202020202072657475726e20636c732e5f67726f75704c656e677468,
  0x0,
  0x202020202320657870616e6447726f75704c656e677468732829207265616473206120626c6f636b206f6620636f6d70726573736564206c656e67746873206f6620333220737472696e677320616e64,
  0x202020202320657870616e6473207468656d20696e746f206f66667365747320616e64206c656e6774687320666f72206561636820737472696e672e,
  0x2020202023204c656e67746873206172652073746f72656420776974682061207661726961626c652d776964746820656e636f64696e6720696e20636f6e7365637574697665206e6962626c65733a,
  0x20202020232049662061206e6962626c65203c203078632c207468656e20697420697320746865206c656e67746820697473656c662028303d656d70747920737472696e67292e,
  0x20202020232049662061206e6962626c65203e3d203078632c207468656e20697420666f726d732061206c656e6774682076616c756520776974682074686520666f6c6c6f77696e67206e6962626c652e,
  0x20202020232043616c63756c6174696f6e207365652062656c6f772e,
  0x202020202320546865206f66667365747320616e64206c656e6774687320617272617973206d757374206265206174206c6561737420333320286f6e65206d6f726529206c6f6e672062656361757365,
  0x2020202023207468657265206973206e6f20636865636b20686572652061742074686520656e6420696620746865206c617374206e6962626c65206973207374696c6c20757365642e,
  0x2020202064656620657870616e6447726f75704c656e677468732873656c662c20696375446174613a20494355446174612c202067726f7570537472696e67734f66667365743a20696e7429202d3e207475706c655b696e742c206c6973745b696e745d2c206c6973745b696e745d5d3a,
  0x202020202020202069203d2030,
  0x202020202020202073203d2067726f7570537472696e67734f6666736574,
  0x20202020202020206f6666736574203d2030,
  0x20202020202020206c656e677468203d2030,
  0x20202020202020206f6666736574733a206c6973745b696e745d203d205b5d,
  0x20202020202020206c656e677468733a206c6973745b696e745d203d205b5d,
  0x0,
  0x20202020202020207768696c652069203c204c494e45535f5045525f47524f55503a,
  0x202020202020202020202020286c656e677468427974652c2029203d20696375446174612e6765744461746128732c2073202b203129,
  0x20202020202020202020202073202b3d2031,
  0x0,
  0x202020202020202020202020232072656164206576656e206e6962626c65202d204d534273206f66206c656e67746842797465,
  0x2020202020202020202020206966206c656e677468203e3d2031323a,
  0x202020202020202020202020202020206c656e677468203d2028286c656e67746820262030783329203c3c2034207c206c656e67746842797465203e3e203429202b203132,
  0x202020202020202020202020202020206c656e6774684279746520263d20307846,
  0x202020202020202020202020656c6966206c656e67746842797465203e3d20307843303a,
  0x202020202020202020202020202020206c656e677468203d20286c656e677468427974652026203078334629202b203132,
  0x202020202020202020202020656c73653a,
  0x202020202020202020202020202020206c656e677468203d206c656e67746842797465203e3e2034,
  0x202020202020202020202020202020206c656e6774684279746520263d20307846,
  0x0,
  0x2020202020202020202020206f6666736574732e617070656e64286f666673657429,
  0x2020202020202020202020206c656e677468732e617070656e64286c656e67746829,
  0x2020202020202020202020206f6666736574202b3d206c656e677468,
  0x20202020202020202020202069202b3d2031,
  0x0,
  0x202020202020202020202020232072656164206f6464206e6962626c65202d204c534273206f66206c656e67746842797465,
  0x202020202020202020202020696620286c656e677468427974652026203078463029203d3d20303a,
  0x20202020202020202020202020202020232074686973206e6962626c6520776173206e6f7420636f6e73756d656420666f72206120646f75626c652d6e6962626c65206c656e6774682061626f7665,
  0x202020202020202020202020202020206c656e677468203d206c656e67746842797465,
  0x0,
  0x202020202020202020202020202020206966206c656e677468203c2031323a,
  0x2020202020202020202020202020202020202020232073696e676c652d6e6962626c65206c656e67746820696e204c534273,
  0x20202020202020202020202020202020202020206f6666736574732e617070656e64286f666673657429,
  0x20202020202020202020202020202020202020206c656e677468732e617070656e64286c656e67746829,
  0x20202020202020202020202020202020202020206f6666736574202b3d206c656e677468,
  0x202020202020202020202020202020202020202069202b3d2031,
  0x202020202020202020202020656c73653a,
  0x202020202020202020202020202020206c656e677468203d20302020232070726576656e7420646f75626c652d6e6962626c6520646574656374696f6e20696e20746865206e65787420697465726174696f6e,
  0x0,
  0x202020202020202072657475726e2028732c206f6666736574732c206c656e6774687329,
  0x0,
  0x20202020646566205f5f696e69745f5f2873656c662c20696375446174613a20494355446174612c2067726f757053746172743a20696e742c2067726f7570537472696e677353746172743a20696e74293a,
  0x202020202020202067726f75704c696d6974203d2067726f75705374617274202b2073656c662e5f67726f75704c656e677468,
  0x2020202020202020676f203d20737374727563742e756e7061636b2873656c662e5f67726f7570466f726d61742c20696375446174612e676574446174612867726f757053746172742c2067726f75704c696d6974292c2073656c662e5f47726f75704f626a656374282929,
  0x202020202020202067726f7570203d20747970696e672e6361737428747970652873656c662e5f47726f75704f626a656374292c20676f29,
  0x202020202020202073656c662e6d7362203d2067726f75702e6d7362,
  0x20202020202020206f6666736574203d202867726f75702e6f666673657448696768203c3c20313629207c2067726f75702e6f66667365744c6f77,
  0x2020202020202020737461727443686172203d2073656c662e6d7362203c3c2047524f55505f5348494654,
  0x20202020202020206c696d697443686172203d20737461727443686172202b204c494e45535f5045525f47524f5550,
  0x202020202020202073656c662e6368617252616e6765203d2072616e6765287374617274436861722c206c696d69744368617229,
  0x0,
  0x202020202020202073656c662e737472696e67733a206c6973745b62797465735d203d205b5d,
  0x202020202020202028646174614f66667365742c206f6666736574732c206c656e6774687329203d2073656c662e657870616e6447726f75704c656e6774687328696375446174612c2067726f7570537472696e67735374617274202b206f666673657429,
  0x2020202020202020666f72206920696e2072616e6765286c656e286f66667365747329293a,
  0x202020202020202020202020737472696e675374617274203d20646174614f6666736574202b206f6666736574735b695d,
  0x202020202020202020202020737472696e674c696d6974203d20737472696e675374617274202b206c656e677468735b695d,
  0x0,
  0x20202020202020202020202073656c662e737472696e67732e617070656e6428696375446174612e6765744461746128737472696e6753746172742c20737472696e674c696d69742929,
  0x0,
  0x2020202064656620657870616e644e616d652873656c662c206c696e654e756d6265723a20696e742c206e616d6543686f6963653a20696e7429202d3e207374723a,
  0x2020202020202020737472696e67203d2073656c662e737472696e67735b6c696e654e756d6265725d,
  0x0,
  0x20202020202020206966206e616d6543686f69636520213d20555f554e49434f44455f434841525f4e414d4520616e64206e616d6543686f69636520213d20555f455854454e4445445f434841525f4e414d453a,
  0x2020202020202020202020206669656c64496e646578203d2032206966206e616d6543686f696365203d3d20555f49534f5f434f4d4d454e5420656c7365206e616d6543686f696365,
  0x2020202020202020202020206669656c6473203d20737472696e672e73706c69742862273b2729,
  0x202020202020202020202020737472696e67203d206669656c64735b6669656c64496e6465785d206966206669656c64496e646578203c206c656e286669656c64732920656c736520622727,
  0x0,
  0x202020202020202072657475726e20546f6b656e732e657870616e64537472696e6728737472696e672c206e616d6543686f69636529,
  0x0,
  0x20202020646566206e616d654974657261746f722873656c662c206e616d6543686f6963653a20696e74293a,
  0x2020202020202020666f7220636f646520696e2073656c662e6368617252616e67653a,
  0x2020202020202020202020207969656c642028636f64652c2073656c662e657870616e644e616d6528636f646520262047524f55505f4d41534b2c206e616d6543686f6963652929,
  0x0,
  0x636c61737320416c676f726974686d696352616e6765286f626a656374293a,
  0x20202020646566205f5f696e69745f5f2873656c662c20696375446174613a20494355446174612c206f66667365743a20696e74293a,
  0x202020202020202072616e67655374617274203d206f6666736574,
  0x202020202020202072616e67654c696d6974203d2072616e67655374617274202b205f72616e67654c656e677468,
  0x20202020202020206172203d20737374727563742e756e7061636b285f72616e6765466f726d61742c20696375446174612e676574446174612872616e676553746172742c2072616e67654c696d6974292c20416c6752616e6765282929,
  0x2020202020202020616c6752616e6765203d20747970696e672e6361737428416c6752616e67652c20617229,
  0x202020202020202073656c662e74797065203d20616c6752616e67652e74797065,
  0x202020202020202073656c662e76617269616e74203d20616c6752616e67652e76617269616e74,
  0x202020202020202073656c662e73697a65203d20616c6752616e67652e73697a65,
  0x0,
  0x202020202020202073656c662e6368617252616e6765203d2072616e676528616c6752616e67652e73746172742c20616c6752616e67652e656e64202b203129,
  0x202020202020202069662073656c662e74797065203d3d20303a,
  0x20202020202020202020202073656c662e737472696e67203d20696375446174612e676574537472696e672872616e67654c696d697429,
  0x202020202020202020202020232073656c662e666163746f7273203d204e6f6e65,
  0x202020202020202020202020232073656c662e656c656d656e7473203d204e6f6e65,
  0x20202020202020202020202073656c662e666163746f72733a207475706c655b696e742c202e2e2e5d203d202829,
  0x20202020202020202020202073656c662e656c656d656e74733a206c6973745b7374725d203d205b5d,
  0x2020202020202020656c69662073656c662e74797065203d3d20313a,
  0x202020202020202020202020666163746f72436f756e74203d2073656c662e76617269616e74,
  0x202020202020202020202020666163746f7273466f726d6174203d2066227b666163746f72436f756e747d4822,
  0x202020202020202020202020666163746f72734c656e677468203d207374727563742e63616c6373697a6528666163746f7273466f726d617429,
  0x202020202020202020202020666163746f72735374617274203d2072616e67654c696d6974,
  0x202020202020202020202020666163746f72734c696d6974203d20666163746f72735374617274202b20666163746f72734c656e677468,
  0x202020202020202020202020666163746f727344617461203d20696375446174612e6765744461746128666163746f727353746172742c20666163746f72734c696d697429,
  0x20202020202020202020202073656c662e666163746f7273203d207374727563742e756e7061636b28666163746f7273466f726d61742c20666163746f72734461746129,
  0x20202020202020202020202073656c662e737472696e67203d20696375446174612e676574537472696e6728666163746f72734c696d697429,
  0x0,
  0x20202020202020202020202073656c662e656c656d656e74733a206c6973745b7374725d203d205b5d,
  0x202020202020202020202020656c656d656e745374617274203d20666163746f72734c696d6974202b206c656e2873656c662e737472696e6729202b2031202023202b203120666f72206e756c6c2062797465,
  0x0,
  0x2020202020202020202020207768696c6520656c656d656e745374617274203c206f6666736574202b2073656c662e73697a653a,
  0x20202020202020202020202020202020656c656d656e74203d20696375446174612e676574537472696e6728656c656d656e74537461727429,
  0x2020202020202020202020202020202073656c662e656c656d656e74732e617070656e6428656c656d656e7429,
  0x20202020202020202020202020202020656c656d656e745374617274202b3d206c656e28656c656d656e7429202b2031,
  0x0,
  0x2020202020202020656c73653a,
  0x20202020202020202020202073656c662e737472696e67203d202222,
  0x20202020202020202020202073656c662e666163746f7273203d202829,
  0x20202020202020202020202073656c662e656c656d656e7473203d205b5d,
  0x0,
  0x2020202064656620666163746f725375666669782873656c662c20636861723a20696e7429202d3e207374723a,
  0x2020202020202020696e64657865733a206c6973745b696e745d203d205b5d,
  0x2020202020202020636f6465203d2063686172202d2073656c662e6368617252616e67652e7374617274,
  0x2020202020202020737566666978203d2073656c662e737472696e67,
  0x0,
  0x2020202020202020636f756e74203d206c656e2873656c662e666163746f727329202d2031,
  0x0,
  0x2020202020202020666f72206920696e2072616e676528636f756e742c20302c202d31293a,
  0x202020202020202020202020666163746f72203d2073656c662e666163746f72735b695d,
  0x202020202020202020202020696e64657865732e696e7365727428302c20636f6465202520666163746f7229,
  0x202020202020202020202020636f6465202f2f3d20666163746f72,
  0x0,
  0x2020202020202020696e64657865732e696e7365727428302c20636f646529,
  0x0,
  0x2020202020202020656c656d656e74496e646578203d2030,
  0x2020202020202020666f72206920696e2072616e676528636f756e74202b2031293a,
  0x202020202020202020202020656c656d656e74496e646578202b3d20696e64657865735b695d,
  0x202020202020202020202020737566666978202b3d2073656c662e656c656d656e74735b656c656d656e74496e6465785d,
  0x202020202020202020202020656c656d656e74496e646578202b3d2073656c662e666163746f72735b695d202d20696e64657865735b695d,
  0x0,
  0x202020202020202072657475726e20737566666978,
  0x0,
  0x20202020646566206765744e616d652873656c662c20636f64653a20696e742c206e616d6543686f6963653a20696e7429202d3e207374723a,
  0x20202020202020206e616d65203d202222,
  0x0,
  0x20202020202020206966206e616d6543686f69636520213d20555f554e49434f44455f434841525f4e414d4520616e64206e616d6543686f69636520213d20555f455854454e4445445f434841525f4e414d453a,
  0x20202020202020202020202023204f6e6c7920746865206e6f726d617469766520636861726163746572206e616d652063616e20626520616c676f726974686d69632e,
  0x20202020202020202020202072657475726e202222,
  0x0,
  0x202020202020202069662073656c662e74797065203d3d20303a,
  0x2020202020202020202020206e616d65202b3d2073656c662e737472696e67,
  0x0,
  0x202020202020202020202020646967697473203d2073656c662e76617269616e74,
  0x202020202020202020202020696620646967697473203d3d20343a,
  0x20202020202020202020202020202020686578203d2066227b636f64653a3034587d22,
  0x202020202020202020202020656c696620646967697473203d3d20353a,
  0x20202020202020202020202020202020686578203d2066227b636f64653a3035587d22,
  0x202020202020202020202020656c73653a,
  0x20202020202020202020202020202020686578203d2066227b636f64653a3036587d22,
  0x0,
  0x2020202020202020202020206e616d65202b3d20686578,
  0x2020202020202020656c69662073656c662e74797065203d3d20313a,
  0x2020202020202020202020206e616d65202b3d2073656c662e666163746f7253756666697828636f646529,
  0x0,
  0x202020202020202072657475726e206e616d65,
  0x0,
  0x202020206465662063686172496e52616e67652873656c662c20636861723a20696e7429202d3e20626f6f6c3a,
  0x202020202020202072657475726e206368617220696e2073656c662e6368617252616e6765,
  0x0,
  0x2020202064656620636861724f6666736574496e52616e67652873656c662c20636861723a20696e7429202d3e20696e743a,
  0x202020202020202072657475726e2063686172202d2073656c662e6368617252616e67652e7374617274,
  0x0,
  0x20202020646566206e616d654974657261746f722873656c662c206e616d6543686f6963653a20696e74293a,
  0x2020202020202020666f7220636f646520696e2073656c662e6368617252616e67653a,
  0x2020202020202020202020207969656c642028636f64652c2073656c662e6765744e616d6528636f64652c206e616d6543686f6963652929,
  0x0,
  0x636c61737320436861724e616d6573286f626a656374293a,
  0x202020205f69637544617461203d20494355446174612829,
  0x202020205f67726f7570733a206c6973745b47726f75705d203d205b5d,
  0x202020205f616c676f726974686d696352616e6765733a206c6973745b416c676f726974686d696352616e67655d203d205b5d,
  0x0,
  0x2020202040636c6173736d6574686f64,
  0x2020202064656620706f70756c6174654461746128636c73293a,
  0x0,
  0x202020202020202028646174614f66667365742c206461746148656164657229203d20636c732e5f696375446174612e676574446174614f6666736574416e644865616465722822756e616d65732e6963752229,
  0x0,
  0x2020202020202020626173654f6666736574203d20646174614f6666736574202b20646174614865616465722e6865616465724c656e677468,
  0x20202020202020206e616d6573446174614865616465725374617274203d20626173654f6666736574,
  0x20202020202020206e616d6573446174614865616465724c696d6974203d206e616d6573446174614865616465725374617274202b205f6e616d65446174614865616465724c656e677468,
  0x20202020202020206e616d65734461746148656164657244617461203d20636c732e5f696375446174612e67657444617461286e616d65734461746148656164657253746172742c206e616d6573446174614865616465724c696d697429,
  0x20202020202020206e6468203d20737374727563742e756e7061636b285f6e616d6544617461486561646572466f726d61742c206e616d657344617461486561646572446174615b3a5f6e616d65446174614865616465724c656e6774685d2c204e616d6544617461486561646572282929,
  0x20202020202020206e616d6544617461486561646572203d20747970696e672e63617374284e616d65446174614865616465722c206e646829,
  0x0,
  0x2020202020202020746f6b656e735374617274203d206e616d6573446174614865616465724c696d6974,
  0x2020202020202020746f6b656e537472696e67735374617274203d206e616d65446174614865616465722e746f6b656e537472696e674f6666736574202b20626173654f6666736574,
  0x2020202020202020746f6b656e537472696e67734c696d6974203d206e616d65446174614865616465722e67726f7570734f6666736574202b20626173654f6666736574,
  0x0,
  0x2020202020202020546f6b656e732e706f70756c6174654461746128636c732e5f696375446174612c20746f6b656e7353746172742c20746f6b656e537472696e677353746172742c20746f6b656e537472696e67734c696d697429,
  0x0,
  0x202020202020202067726f7570735374617274203d206e616d65446174614865616465722e67726f7570734f6666736574202b20626173654f6666736574,
  0x20202020202020202867726f7570734c696d69742c29203d207374727563742e756e7061636b282248222c20636c732e5f696375446174612e676574446174612867726f75707353746172742c2067726f7570735374617274202b20322929,
  0x0,
  0x202020202020202067726f7570537472696e67735374617274203d206e616d65446174614865616465722e67726f7570537472696e674f6666736574202b20626173654f6666736574,
  0x0,
  0x202020202020202067726f75705374617274203d2067726f7570735374617274202b2032,
  0x0,
  0x2020202020202020666f72205f20696e2072616e67652867726f7570734c696d6974293a,
  0x20202020202020202020202067726f7570203d2047726f757028636c732e5f696375446174612c2067726f757053746172742c2067726f7570537472696e6773537461727429,
  0x202020202020202020202020636c732e5f67726f7570732e617070656e642867726f757029,
  0x20202020202020202020202067726f75705374617274202b3d2047726f75702e67726f75704c656e6774682829,
  0x0,
  0x202020202020202072616e67655374617274203d206e616d65446174614865616465722e616c674e616d65734f6666736574202b20626173654f6666736574,
  0x202020202020202028616c676f726974686d696352616e6765436f756e742c29203d207374727563742e756e7061636b282249222c20636c732e5f696375446174612e676574446174612872616e676553746172742c2072616e67655374617274202b20342929,
  0x0,
  0x202020202020202072616e67655374617274202b3d2034,
  0x2020202020202020666f72205f20696e2072616e676528616c676f726974686d696352616e6765436f756e74293a,
  0x202020202020202020202020616c6752616e6765203d20416c676f726974686d696352616e676528636c732e5f696375446174612c2072616e6765537461727429,
  0x202020202020202020202020636c732e5f616c676f726974686d696352616e6765732e617070656e6428616c6752616e676529,
  0x20202020202020202020202072616e67655374617274202b3d20616c6752616e67652e73697a65,
  0x0,
  0x2020202040636c6173736d6574686f64,
  0x202020206465662067657447726f757028636c732c20636f64653a20696e7429202d3e20747970696e672e4f7074696f6e616c5b47726f75705d3a,
  0x202020202020202067726f75704d5342203d20636f6465203e3e2047524f55505f5348494654,
  0x20202020202020207374617274203d2030,
  0x20202020202020206c696d6974203d206c656e28636c732e5f67726f75707329,
  0x0,
  0x20202020202020207768696c65207374617274203c206c696d6974202d20313a,
  0x2020202020202020202020206d6964706f696e74203d20287374617274202b206c696d697429202f2f2032,
  0x20202020202020202020202069662067726f75704d5342203c20636c732e5f67726f7570735b6d6964706f696e745d2e6d73623a,
  0x202020202020202020202020202020206c696d6974203d206d6964706f696e74,
  0x202020202020202020202020656c73653a,
  0x202020202020202020202020202020207374617274203d206d6964706f696e74,
  0x0,
  0x202020202020202072657475726e20636c732e5f67726f7570735b73746172745d20696620636c732e5f67726f7570735b73746172745d2e6d7362203d3d2067726f75704d534220656c7365204e6f6e65,
  0x0,
  0x0,
  0x2020202040636c6173736d6574686f64,
  0x20202020646566206765744368617243617428636c732c20636f64653a20696e7429202d3e20696e743a,
  0x20202020202020206966206973556e69636f64654e6f6e63686172616374657228636f6465293a,
  0x20202020202020202020202072657475726e2047435f4e4f4e4348415241435445525f434f4445504f494e54,
  0x0,
  0x2020202020202020636174203d2067657447656e6572616c43617465676f727928636f646529,
  0x2020202020202020696620636174203d3d2047435f535552524f474154453a,
  0x20202020202020202020202072657475726e2047435f4c4541445f535552524f474154452069662069734c65616428636f64652920656c73652047435f545241494c5f535552524f47415445,
  0x0,
  0x202020202020202072657475726e20636174,
  0x0,
  0x2020202040636c6173736d6574686f64,
  0x2020202064656620676574436861724361744e616d6528636c732c20636f64653a20696e7429202d3e207374723a,
  0x2020202020202020636174203d20636c732e6765744368617243617428636f646529,
  0x0,
  0x202020202020202072657475726e2022756e6b6e6f776e2220696620636174203e3d206c656e28636861724361744e616d65732920656c736520636861724361744e616d65735b6361745d,
  0x0,
  0x2020202040636c6173736d6574686f64,
  0x20202020646566205f6765744e616d6528636c732c20636f64653a20696e742c206e616d6543686f6963653a20696e7429202d3e207374723a,
  0x202020202020202067726f7570203d20636c732e67657447726f757028636f646529,
  0x0,
  0x202020202020202069662067726f7570206973206e6f74204e6f6e653a,
  0x20202020202020202020202072657475726e2067726f75702e657870616e644e616d6528636f646520262047524f55505f4d41534b2c206e616d6543686f69636529,
  0x0,
  0x202020202020202072657475726e202222,
  0x0,
  0x2020202040636c6173736d6574686f64,
  0x2020202064656620676574436861724e616d6528636c732c20636f64653a20696e742c206e616d6543686f6963653a696e743d555f554e49434f44455f434841525f4e414d4529202d3e207374723a,
  0x2020202020202020666f7220616c676f726974686d696352616e676520696e20636c732e5f616c676f726974686d696352616e6765733a,
  0x202020202020202020202020696620616c676f726974686d696352616e67652e63686172496e52616e676528636f6465293a,
  0x2020202020202020202020202020202072657475726e20616c676f726974686d696352616e67652e6765744e616d6528636f64652c206e616d6543686f69636529,
  0x0,
  0x20202020202020206966206e616d6543686f696365203d3d20555f455854454e4445445f434841525f4e414d453a,
  0x20202020202020202020202072657475726e2066223c7b636c732e676574436861724361744e616d6528636f6465297d2d7b636f64653a3034587d3e22,
  0x0,
  0x202020202020202072657475726e20436861724e616d65732e5f6765744e616d6528636f64652c206e616d6543686f69636529,
  0x0,
  0x2020202040636c6173736d6574686f64,
  0x20202020646566206e616d654974657261746f7228636c732c206e616d6543686f6963653a20696e74203d555f554e49434f44455f434841525f4e414d4529202d3e20747970696e672e4974657261746f725b7475706c655b696e742c207374725d5d3a,
  0x2020202020202020636861724c696d6974203d206d617828636c732e5f67726f7570735b2d315d2e6368617252616e67652e73746f702c20636c732e5f616c676f726974686d696352616e6765735b2d315d2e6368617252616e67652e73746f7029,
  0x202020202020202063686172203d2030,
  0x2020202020202020616c6752616e6765203d2030,
  0x20202020202020207768696c652063686172203c20636861724c696d69743a,
  0x20202020202020202020202067726f7570203d20636c732e67657447726f7570286368617229,
  0x20202020202020202020202069662067726f757020616e64206368617220696e2067726f75702e6368617252616e67653a,
  0x20202020202020202020202020202020232067726f75702e6e616d6543686f696365203d2073656c662e6e616d6543686f696365,
  0x20202020202020202020202020202020666f722028636f64652c206e616d652920696e2067726f75702e6e616d654974657261746f72286e616d6543686f696365293a,
  0x20202020202020202020202020202020202020206966206e616d653a207969656c642028636f64652c206e616d6529,
  0x2020202020202020202020202020202063686172203d2067726f75702e6368617252616e67652e73746f70,
  0x202020202020202020202020656c696620616c6752616e6765203c206c656e28636c732e5f616c676f726974686d696352616e6765732920616e6420636c732e5f616c676f726974686d696352616e6765735b616c6752616e67655d2e63686172496e52616e67652863686172293a,
  0x20202020202020202020202020202020616c676f726974686d696352616e6765203d20636c732e5f616c676f726974686d696352616e6765735b616c6752616e67655d,
  0x202020202020202020202020202020202320616c676f726974686d696352616e67652e6e616d6543686f696365203d2073656c662e6e616d6543686f696365,
  0x20202020202020202020202020202020666f722028636f64652c206e616d652920696e20616c676f726974686d696352616e67652e6e616d654974657261746f72286e616d6543686f696365293a,
  0x20202020202020202020202020202020202020206966206e616d653a207969656c642028636f64652c206e616d6529,
  0x2020202020202020202020202020202063686172203d20616c676f726974686d696352616e67652e6368617252616e67652e73746f70,
  0x20202020202020202020202020202020616c6752616e6765202b3d2031,
  0x202020202020202020202020656c73653a,
  0x2020202020202020202020202020202063686172202b3d204c494e45535f5045525f47524f5550,
  0x0,
  0x2020202040636c6173736d6574686f64,
  0x20202020646566206368617246726f6d4e616d6528636c732c207468654e616d653a207374722c206e616d6543686f6963653a696e743d555f554e49434f44455f434841525f4e414d4529202d3e20696e743a,
  0x2020202020202020666f722028636f64652c206e616d652920696e20636c732e6e616d654974657261746f72286e616d6543686f696365293a,
  0x2020202020202020202020206966206e616d65203d3d207468654e616d653a,
  0x2020202020202020202020202020202072657475726e20636f6465,
  0x0,
  0x202020202020202072657475726e2030784646464646464646,
  0x0,
  0x436861724e616d65732e706f70756c617465446174612829,
  0x0]

end Verif.Data.Source
