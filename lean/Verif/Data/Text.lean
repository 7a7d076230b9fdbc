import Verif.Model.Names
/-!
# Texts of modules

Generated by tools/gen_text.py from the text of /repo. Lines and names are written as numbers, see
Model/Lines.lean and Model/Names.lean.
-/
namespace Verif.Data.Text

/-- UnicodeData/ucase_h.py:1-79 the lines of the file. -/
def ucase_h : List Nat :=
 [0x2222222f,
  0x75636173655f682e70792c206261736564206f6e2075636173652e682066726f6d20494355,
  0x0,
  0x47656e65726174656420627920486561646572546f507479686f6e2e7079206f6e204175677573742032362c20323032312061742031313a32373a313320414d20485354,
  0x222222,
  0x0,
  0x55434153455f4c4f435f554e4b4e4f574e203d2030,
  0x55434153455f4c4f435f524f4f54203d2031,
  0x55434153455f4c4f435f5455524b495348203d2032,
  0x55434153455f4c4f435f4c49544855414e49414e203d2033,
  0x55434153455f4c4f435f475245454b203d2034,
  0x55434153455f4c4f435f4455544348203d2035,
  0x55434153455f4c4f435f41524d454e49414e203d2036,
  0x5f53545243415345434d505f4f5054494f4e535f4d41534b203d20307866666666,
  0x5f464f4c445f434153455f4f5054494f4e535f4d41534b203d2037,
  0x55434153455f4d41585f535452494e475f4c454e475448203d2030783166,
  0x55434153455f444154415f4e414d45203d2022756361736522,
  0x55434153455f444154415f54595045203d202269637522,
  0x55434153455f464d545f30203d2030783633,
  0x55434153455f464d545f31203d2030783431,
  0x55434153455f464d545f32203d2030783533,
  0x55434153455f464d545f33203d2030783435,
  0x55434153455f49585f494e4445585f544f50203d2030,
  0x55434153455f49585f4c454e475448203d2031,
  0x55434153455f49585f545249455f53495a45203d2032,
  0x55434153455f49585f4558435f4c454e475448203d2033,
  0x55434153455f49585f554e464f4c445f4c454e475448203d2034,
  0x55434153455f49585f4d41585f46554c4c5f4c454e475448203d203135,
  0x55434153455f49585f544f50203d203136,
  0x55434153455f545950455f4d41534b203d2033,
  0x55434153455f4e4f4e45203d2030,
  0x55434153455f4c4f574552203d2031,
  0x55434153455f5550504552203d2032,
  0x55434153455f5449544c45203d2033,
  0x55434153455f49474e4f5241424c45203d2034,
  0x55434153455f455843455054494f4e203d2038,
  0x55434153455f53454e534954495645203d2030783130,
  0x55434153455f444f545f4d41534b203d2030783630,
  0x55434153455f4e4f5f444f54203d203020202320206e6f726d616c206368617261637465727320776974682063633d3020,
  0x55434153455f534f46545f444f54544544203d20307832302020232020736f66742d646f74746564206368617261637465727320776974682063633d3020,
  0x55434153455f41424f5645203d203078343020202320202261626f76652220616363656e747320776974682063633d32333020,
  0x55434153455f4f544845525f414343454e54203d203078363020202320206f7468657220616363656e74206368617261637465722028303c6363213d3233302920,
  0x55434153455f44454c54415f5348494654203d2037,
  0x55434153455f44454c54415f4d41534b203d20307866663830,
  0x55434153455f4d41585f44454c5441203d2030786666,
  0x55434153455f4d494e5f44454c5441203d20282d55434153455f4d41585f44454c54412d3129,
  0x55434153455f4558435f5348494654203d2034,
  0x55434153455f4558435f4d41534b203d20307866666630,
  0x55434153455f4d41585f455843455054494f4e53203d20282855434153455f4558435f4d41534b3e3e55434153455f4558435f5348494654292b3129,
  0x55434153455f4558435f4c4f574552203d2030,
  0x55434153455f4558435f464f4c44203d2031,
  0x55434153455f4558435f5550504552203d2032,
  0x55434153455f4558435f5449544c45203d2033,
  0x55434153455f4558435f44454c5441203d2034,
  0x55434153455f4558435f35203d20352020232020726573657276656420,
  0x55434153455f4558435f434c4f53555245203d2036,
  0x55434153455f4558435f46554c4c5f4d415050494e4753203d2037,
  0x55434153455f4558435f414c4c5f534c4f5453203d203820202320206f6e65207061737420746865206c61737420736c6f7420,
  0x55434153455f4558435f444f55424c455f534c4f5453203d203078313030,
  0x55434153455f4558435f4e4f5f53494d504c455f434153455f464f4c44494e47203d203078323030,
  0x55434153455f4558435f44454c54415f49535f4e45474154495645203d203078343030,
  0x55434153455f4558435f53454e534954495645203d203078383030,
  0x55434153455f4558435f444f545f5348494654203d2037,
  0x55434153455f4558435f444f545f4d41534b203d20307833303030,
  0x55434153455f4558435f4e4f5f444f54203d2030,
  0x55434153455f4558435f534f46545f444f54544544203d20307831303030,
  0x55434153455f4558435f41424f5645203d2030783230303020202320202261626f76652220616363656e747320776974682063633d32333020,
  0x55434153455f4558435f4f544845525f414343454e54203d2030783330303020202320206f74686572206368617261637465722028303c6363213d3233302920,
  0x55434153455f4558435f434f4e444954494f4e414c5f5350454349414c203d20307834303030,
  0x55434153455f4558435f434f4e444954494f4e414c5f464f4c44203d20307838303030,
  0x55434153455f46554c4c5f4c4f574552203d20307866,
  0x55434153455f46554c4c5f464f4c44494e47203d2030786630,
  0x55434153455f46554c4c5f5550504552203d203078663030,
  0x55434153455f46554c4c5f5449544c45203d20307866303030,
  0x55434153455f46554c4c5f4d415050494e47535f4d41585f4c454e475448203d2028342a30786629,
  0x55434153455f434c4f535552455f4d41585f4c454e475448203d20307866,
  0x55434153455f554e464f4c445f524f5753203d2030,
  0x55434153455f554e464f4c445f524f575f5749445448203d2031,
  0x55434153455f554e464f4c445f535452494e475f5749445448203d2032]

/-- UnicodeData/ucase_h.py: the integer constants with their values. -/
def ucaseConstants : List (Nat × Int) :=
 [(0x4e574f4e4b4e555f434f4c5f4553414355, 0),
  (0x544f4f525f434f4c5f4553414355, 1),
  (0x4853494b5255545f434f4c5f4553414355, 2),
  (0x4e41494e41554854494c5f434f4c5f4553414355, 3),
  (0x4b454552475f434f4c5f4553414355, 4),
  (0x48435455445f434f4c5f4553414355, 5),
  (0x4e41494e454d52415f434f4c5f4553414355, 6),
  (0x4b53414d5f534e4f4954504f5f504d43455341435254535f, 65535),
  (0x4b53414d5f534e4f4954504f5f455341435f444c4f465f, 7),
  (0x4854474e454c5f474e495254535f58414d5f4553414355, 31),
  (0x305f544d465f4553414355, 99),
  (0x315f544d465f4553414355, 65),
  (0x325f544d465f4553414355, 83),
  (0x335f544d465f4553414355, 69),
  (0x504f545f5845444e495f58495f4553414355, 0),
  (0x4854474e454c5f58495f4553414355, 1),
  (0x455a49535f454952545f58495f4553414355, 2),
  (0x4854474e454c5f4358455f58495f4553414355, 3),
  (0x4854474e454c5f444c4f464e555f58495f4553414355, 4),
  (0x4854474e454c5f4c4c55465f58414d5f58495f4553414355, 15),
  (0x504f545f58495f4553414355, 16),
  (0x4b53414d5f455059545f4553414355, 3),
  (0x454e4f4e5f4553414355, 0),
  (0x5245574f4c5f4553414355, 1),
  (0x52455050555f4553414355, 2),
  (0x454c5449545f4553414355, 3),
  (0x454c4241524f4e47495f4553414355, 4),
  (0x4e4f495450454358455f4553414355, 8),
  (0x4556495449534e45535f4553414355, 16),
  (0x4b53414d5f544f445f4553414355, 96),
  (0x544f445f4f4e5f4553414355, 0),
  (0x444554544f445f54464f535f4553414355, 32),
  (0x45564f42415f4553414355, 64),
  (0x544e454343415f524548544f5f4553414355, 96),
  (0x54464948535f41544c45445f4553414355, 7),
  (0x4b53414d5f41544c45445f4553414355, 65408),
  (0x41544c45445f58414d5f4553414355, 255),
  (0x41544c45445f4e494d5f4553414355, -256),
  (0x54464948535f4358455f4553414355, 4),
  (0x4b53414d5f4358455f4553414355, 65520),
  (0x534e4f495450454358455f58414d5f4553414355, 4096),
  (0x5245574f4c5f4358455f4553414355, 0),
  (0x444c4f465f4358455f4553414355, 1),
  (0x52455050555f4358455f4553414355, 2),
  (0x454c5449545f4358455f4553414355, 3),
  (0x41544c45445f4358455f4553414355, 4),
  (0x355f4358455f4553414355, 5),
  (0x455255534f4c435f4358455f4553414355, 6),
  (0x53474e495050414d5f4c4c55465f4358455f4553414355, 7),
  (0x53544f4c535f4c4c415f4358455f4553414355, 8),
  (0x53544f4c535f454c42554f445f4358455f4553414355, 256),
  (0x474e49444c4f465f455341435f454c504d49535f4f4e5f4358455f4553414355, 512),
  (0x455649544147454e5f53495f41544c45445f4358455f4553414355, 1024),
  (0x4556495449534e45535f4358455f4553414355, 2048),
  (0x54464948535f544f445f4358455f4553414355, 7),
  (0x4b53414d5f544f445f4358455f4553414355, 12288),
  (0x544f445f4f4e5f4358455f4553414355, 0),
  (0x444554544f445f54464f535f4358455f4553414355, 4096),
  (0x45564f42415f4358455f4553414355, 8192),
  (0x544e454343415f524548544f5f4358455f4553414355, 12288),
  (0x4c4149434550535f4c414e4f495449444e4f435f4358455f4553414355, 16384),
  (0x444c4f465f4c414e4f495449444e4f435f4358455f4553414355, 32768),
  (0x5245574f4c5f4c4c55465f4553414355, 15),
  (0x474e49444c4f465f4c4c55465f4553414355, 240),
  (0x52455050555f4c4c55465f4553414355, 3840),
  (0x454c5449545f4c4c55465f4553414355, 61440),
  (0x4854474e454c5f58414d5f53474e495050414d5f4c4c55465f4553414355, 60),
  (0x4854474e454c5f58414d5f455255534f4c435f4553414355, 15),
  (0x53574f525f444c4f464e555f4553414355, 0),
  (0x48544449575f574f525f444c4f464e555f4553414355, 1),
  (0x48544449575f474e495254535f444c4f464e555f4553414355, 2)]

/-- UnicodeData/uprops_h.py:1-124 the lines of the file. -/
def uprops_h : List Nat :=
 [0x2222222f,
  0x7570726f70735f682e70792c206261736564206f6e207570726f70732e682066726f6d20494355,
  0x0,
  0x47656e65726174656420627920486561646572546f507479686f6e2e7079206f6e204175677573742032362c20323032312061742031313a32373a313320414d20485354,
  0x222222,
  0x0,
  0x5550524f50535f50524f505333325f494e444558203d2030,
  0x5550524f50535f455843455054494f4e535f494e444558203d2031,
  0x5550524f50535f455843455054494f4e535f544f505f494e444558203d2032,
  0x5550524f50535f4144444954494f4e414c5f545249455f494e444558203d2033,
  0x5550524f50535f4144444954494f4e414c5f564543544f52535f494e444558203d2034,
  0x5550524f50535f4144444954494f4e414c5f564543544f52535f434f4c554d4e535f494e444558203d2035,
  0x5550524f50535f5343524950545f455854454e53494f4e535f494e444558203d2036,
  0x5550524f50535f52455345525645445f494e4445585f37203d2037,
  0x5550524f50535f52455345525645445f494e4445585f38203d2038,
  0x5550524f50535f444154415f544f505f494e444558203d2039,
  0x5550524f50535f4d41585f56414c5545535f494e444558203d203130,
  0x5550524f50535f4d41585f56414c5545535f325f494e444558203d203131,
  0x5550524f50535f494e4445585f434f554e54203d203136,
  0x5550524f50535f4e554d455249435f545950455f56414c55455f5348494654203d2036202023202020362028313020626974732920,
  0x5550524f50535f4e54565f4e4f4e45203d2030,
  0x5550524f50535f4e54565f444543494d414c5f5354415254203d2031,
  0x5550524f50535f4e54565f44494749545f5354415254203d203131,
  0x5550524f50535f4e54565f4e554d455249435f5354415254203d203231,
  0x5550524f50535f4e54565f4652414354494f4e5f5354415254203d2030786230,
  0x5550524f50535f4e54565f4c415247455f5354415254203d203078316530,
  0x5550524f50535f4e54565f4241534536305f5354415254203d203078333030,
  0x5550524f50535f4e54565f4652414354494f4e32305f5354415254203d205550524f50535f4e54565f4241534536305f53544152542b33362020232030783330302b392a343d3078333234,
  0x5550524f50535f4e54565f4652414354494f4e33325f5354415254203d205550524f50535f4e54565f4652414354494f4e32305f53544152542b32342020232030783332342b362a343d3078333463,
  0x5550524f50535f4e54565f52455345525645445f5354415254203d205550524f50535f4e54565f4652414354494f4e33325f53544152542b31362020232030783334632b342a343d3078333563,
  0x5550524f50535f4e54565f4d41585f534d414c4c5f494e54203d205550524f50535f4e54565f4652414354494f4e5f53544152542d5550524f50535f4e54565f4e554d455249435f53544152542d31,
  0x5550524f50535f564543544f525f574f524453203d2033,
  0x5550524f50535f4147455f4d41534b203d2030786666303030303030,
  0x5550524f50535f4147455f5348494654203d203234,
  0x5550524f50535f5343524950545f585f4d41534b203d2030783030663030306666,
  0x5550524f50535f5343524950545f585f5348494654203d203232,
  0x5550524f50535f5343524950545f484947485f4d41534b203d2030783030333030303030,
  0x5550524f50535f5343524950545f484947485f5348494654203d203132,
  0x5550524f50535f4d41585f534352495054203d203078336666,
  0x5550524f50535f45415f4d41534b203d2030783030306530303030,
  0x5550524f50535f45415f5348494654203d203137,
  0x5550524f50535f424c4f434b5f4d41534b203d2030783030303166663030,
  0x5550524f50535f424c4f434b5f5348494654203d2038,
  0x5550524f50535f5343524950545f4c4f575f4d41534b203d2030783030303030306666,
  0x5550524f50535f5343524950545f585f574954485f434f4d4d4f4e203d203078343030303030,
  0x5550524f50535f5343524950545f585f574954485f494e48455249544544203d203078383030303030,
  0x5550524f50535f5343524950545f585f574954485f4f54484552203d203078633030303030,
  0x5550524f50535f57484954455f5350414345203d2030,
  0x5550524f50535f44415348203d2031,
  0x5550524f50535f48595048454e203d2032,
  0x5550524f50535f51554f544154494f4e5f4d41524b203d2033,
  0x5550524f50535f5445524d494e414c5f50554e4354554154494f4e203d2034,
  0x5550524f50535f4d415448203d2035,
  0x5550524f50535f4845585f4449474954203d2036,
  0x5550524f50535f41534349495f4845585f4449474954203d2037,
  0x5550524f50535f414c5048414245544943203d2038,
  0x5550524f50535f4944454f47524150484943203d2039,
  0x5550524f50535f444941435249544943203d203130,
  0x5550524f50535f455854454e444552203d203131,
  0x5550524f50535f4e4f4e4348415241435445525f434f44455f504f494e54203d203132,
  0x5550524f50535f4752415048454d455f455854454e44203d203133,
  0x5550524f50535f4752415048454d455f4c494e4b203d203134,
  0x5550524f50535f4944535f42494e4152595f4f50455241544f52203d203135,
  0x5550524f50535f4944535f5452494e4152595f4f50455241544f52203d203136,
  0x5550524f50535f5241444943414c203d203137,
  0x5550524f50535f554e49464945445f4944454f4752415048203d203138,
  0x5550524f50535f44454641554c545f49474e4f5241424c455f434f44455f504f494e54203d203139,
  0x5550524f50535f44455052454341544544203d203230,
  0x5550524f50535f4c4f474943414c5f4f524445525f455843455054494f4e203d203231,
  0x5550524f50535f5849445f5354415254203d203232,
  0x5550524f50535f5849445f434f4e54494e5545203d203233,
  0x5550524f50535f49445f5354415254203d203234202023202049435520322e362c207570726f707320666f726d61742076657273696f6e20332e3220,
  0x5550524f50535f49445f434f4e54494e5545203d203235,
  0x5550524f50535f4752415048454d455f42415345203d203236,
  0x5550524f50535f535f5445524d203d20323720202320206e657720696e2049435520332e3020616e6420556e69636f646520342e302e3120,
  0x5550524f50535f564152494154494f4e5f53454c4543544f52203d203238,
  0x5550524f50535f5041545445524e5f53594e544158203d20323920202320206e657720696e2049435520332e3420616e6420556e69636f646520342e3120,
  0x5550524f50535f5041545445524e5f57484954455f5350414345203d203330,
  0x5550524f50535f50524550454e4445445f434f4e434154454e4154494f4e5f4d41524b203d203331202023206e657720696e2049435520363020616e6420556e69636f6465203130,
  0x5550524f50535f42494e4152595f315f544f50203d20333220202320203d3d3332202d2066756c6c2120,
  0x5550524f50535f325f455854454e4445445f504943544f47524150484943203d203236,
  0x5550524f50535f325f454d4f4a495f434f4d504f4e454e54203d203237,
  0x5550524f50535f325f454d4f4a49203d203238,
  0x5550524f50535f325f454d4f4a495f50524553454e544154494f4e203d203239,
  0x5550524f50535f325f454d4f4a495f4d4f444946494552203d203330,
  0x5550524f50535f325f454d4f4a495f4d4f4449464945525f42415345203d203331,
  0x5550524f50535f4c425f4d41534b203d2030783033663030303030,
  0x5550524f50535f4c425f5348494654203d203230,
  0x5550524f50535f53425f4d41534b203d2030783030306638303030,
  0x5550524f50535f53425f5348494654203d203135,
  0x5550524f50535f57425f4d41534b203d2030783030303037633030,
  0x5550524f50535f57425f5348494654203d203130,
  0x5550524f50535f4743425f4d41534b203d2030783030303030336530,
  0x5550524f50535f4743425f5348494654203d2035,
  0x5550524f50535f44545f4d41534b203d2030783030303030303166,
  0x544142203d20307830303039,
  0x4c46203d20307830303061,
  0x4646203d20307830303063,
  0x4352203d20307830303064,
  0x4e425350203d20307830306130,
  0x43474a203d20307830333466,
  0x4649475552455350203d20307832303037,
  0x484149525350203d20307832303061,
  0x5a574e4a203d20307832303063,
  0x5a574a203d20307832303064,
  0x524c4d203d20307832303066,
  0x4e4e425350203d20307832303266,
  0x5a574e425350203d20307866656666,
  0x5550524f50535f5352435f4e4f4e45203d2030,
  0x5550524f50535f5352435f43484152203d2031,
  0x5550524f50535f5352435f50524f5053564543203d2032,
  0x5550524f50535f5352435f4e414d4553203d2033,
  0x5550524f50535f5352435f43415345203d2034,
  0x5550524f50535f5352435f42494449203d2035,
  0x5550524f50535f5352435f434841525f414e445f50524f5053564543203d2036,
  0x5550524f50535f5352435f434153455f414e445f4e4f524d203d2037,
  0x5550524f50535f5352435f4e4643203d2038,
  0x5550524f50535f5352435f4e464b43203d2039,
  0x5550524f50535f5352435f4e464b435f4346203d203130,
  0x5550524f50535f5352435f4e46435f43414e4f4e5f49544552203d203131,
  0x5550524f50535f5352435f494e5043203d203132,
  0x5550524f50535f5352435f494e5343203d203133,
  0x5550524f50535f5352435f564f203d203134,
  0x5550524f50535f5352435f434f554e54203d203135]

/-- UnicodeData/uprops_h.py: the integer constants with their values. -/
def upropsConstants : List (Nat × Int) :=
 [(0x5845444e495f323353504f52505f53504f525055, 0),
  (0x5845444e495f534e4f495450454358455f53504f525055, 1),
  (0x5845444e495f504f545f534e4f495450454358455f53504f525055, 2),
  (0x5845444e495f454952545f4c414e4f4954494444415f53504f525055, 3),
  (0x5845444e495f53524f544345565f4c414e4f4954494444415f53504f525055, 4),
  (0x5845444e495f534e4d554c4f435f53524f544345565f4c414e4f4954494444415f53504f525055, 5),
  (0x5845444e495f534e4f49534e455458455f5450495243535f53504f525055, 6),
  (0x375f5845444e495f44455652455345525f53504f525055, 7),
  (0x385f5845444e495f44455652455345525f53504f525055, 8),
  (0x5845444e495f504f545f415441445f53504f525055, 9),
  (0x5845444e495f5345554c41565f58414d5f53504f525055, 10),
  (0x5845444e495f325f5345554c41565f58414d5f53504f525055, 11),
  (0x544e554f435f5845444e495f53504f525055, 16),
  (0x54464948535f45554c41565f455059545f434952454d554e5f53504f525055, 6),
  (0x454e4f4e5f56544e5f53504f525055, 0),
  (0x54524154535f4c414d494345445f56544e5f53504f525055, 1),
  (0x54524154535f54494749445f56544e5f53504f525055, 11),
  (0x54524154535f434952454d554e5f56544e5f53504f525055, 21),
  (0x54524154535f4e4f4954434152465f56544e5f53504f525055, 176),
  (0x54524154535f454752414c5f56544e5f53504f525055, 480),
  (0x54524154535f3036455341425f56544e5f53504f525055, 768),
  (0x54524154535f30324e4f4954434152465f56544e5f53504f525055, 804),
  (0x54524154535f32334e4f4954434152465f56544e5f53504f525055, 828),
  (0x54524154535f44455652455345525f56544e5f53504f525055, 844),
  (0x544e495f4c4c414d535f58414d5f56544e5f53504f525055, 154),
  (0x5344524f575f524f544345565f53504f525055, 3),
  (0x4b53414d5f4547415f53504f525055, 4278190080),
  (0x54464948535f4547415f53504f525055, 24),
  (0x4b53414d5f585f5450495243535f53504f525055, 15728895),
  (0x54464948535f585f5450495243535f53504f525055, 22),
  (0x4b53414d5f484749485f5450495243535f53504f525055, 3145728),
  (0x54464948535f484749485f5450495243535f53504f525055, 12),
  (0x5450495243535f58414d5f53504f525055, 1023),
  (0x4b53414d5f41455f53504f525055, 917504),
  (0x54464948535f41455f53504f525055, 17),
  (0x4b53414d5f4b434f4c425f53504f525055, 130816),
  (0x54464948535f4b434f4c425f53504f525055, 8),
  (0x4b53414d5f574f4c5f5450495243535f53504f525055, 255),
  (0x4e4f4d4d4f435f485449575f585f5450495243535f53504f525055, 4194304),
  (0x444554495245484e495f485449575f585f5450495243535f53504f525055, 8388608),
  (0x524548544f5f485449575f585f5450495243535f53504f525055, 12582912),
  (0x45434150535f45544948575f53504f525055, 0),
  (0x485341445f53504f525055, 1),
  (0x4e45485059485f53504f525055, 2),
  (0x4b52414d5f4e4f495441544f55515f53504f525055, 3),
  (0x4e4f4954415554434e55505f4c414e494d5245545f53504f525055, 4),
  (0x4854414d5f53504f525055, 5),
  (0x54494749445f5845485f53504f525055, 6),
  (0x54494749445f5845485f49494353415f53504f525055, 7),
  (0x43495445424148504c415f53504f525055, 8),
  (0x434948504152474f4544495f53504f525055, 9),
  (0x4349544952434149445f53504f525055, 10),
  (0x5245444e455458455f53504f525055, 11),
  (0x544e494f505f45444f435f5245544341524148434e4f4e5f53504f525055, 12),
  (0x444e455458455f454d4548504152475f53504f525055, 13),
  (0x4b4e494c5f454d4548504152475f53504f525055, 14),
  (0x524f54415245504f5f5952414e49425f5344495f53504f525055, 15),
  (0x524f54415245504f5f5952414e4952545f5344495f53504f525055, 16),
  (0x4c4143494441525f53504f525055, 17),
  (0x48504152474f4544495f44454946494e555f53504f525055, 18),
  (0x544e494f505f45444f435f454c4241524f4e47495f544c55414645445f53504f525055, 19),
  (0x444554414345525045445f53504f525055, 20),
  (0x4e4f495450454358455f524544524f5f4c414349474f4c5f53504f525055, 21),
  (0x54524154535f4449585f53504f525055, 22),
  (0x45554e49544e4f435f4449585f53504f525055, 23),
  (0x54524154535f44495f53504f525055, 24),
  (0x45554e49544e4f435f44495f53504f525055, 25),
  (0x455341425f454d4548504152475f53504f525055, 26),
  (0x4d5245545f535f53504f525055, 27),
  (0x524f5443454c45535f4e4f495441495241565f53504f525055, 28),
  (0x5841544e59535f4e5245545441505f53504f525055, 29),
  (0x45434150535f45544948575f4e5245545441505f53504f525055, 30),
  (0x4b52414d5f4e4f4954414e455441434e4f435f4445444e45504552505f53504f525055, 31),
  (0x504f545f315f5952414e49425f53504f525055, 32),
  (0x434948504152474f544349505f4445444e455458455f325f53504f525055, 26),
  (0x544e454e4f504d4f435f494a4f4d455f325f53504f525055, 27),
  (0x494a4f4d455f325f53504f525055, 28),
  (0x4e4f495441544e45534552505f494a4f4d455f325f53504f525055, 29),
  (0x5245494649444f4d5f494a4f4d455f325f53504f525055, 30),
  (0x455341425f5245494649444f4d5f494a4f4d455f325f53504f525055, 31),
  (0x4b53414d5f424c5f53504f525055, 66060288),
  (0x54464948535f424c5f53504f525055, 20),
  (0x4b53414d5f42535f53504f525055, 1015808),
  (0x54464948535f42535f53504f525055, 15),
  (0x4b53414d5f42575f53504f525055, 31744),
  (0x54464948535f42575f53504f525055, 10),
  (0x4b53414d5f4243475f53504f525055, 992),
  (0x54464948535f4243475f53504f525055, 5),
  (0x4b53414d5f54445f53504f525055, 31),
  (0x424154, 9),
  (0x464c, 10),
  (0x4646, 12),
  (0x5243, 13),
  (0x5053424e, 160),
  (0x4a4743, 847),
  (0x5053455255474946, 8199),
  (0x505352494148, 8202),
  (0x4a4e575a, 8204),
  (0x4a575a, 8205),
  (0x4d4c52, 8207),
  (0x5053424e4e, 8239),
  (0x5053424e575a, 65279),
  (0x454e4f4e5f4352535f53504f525055, 0),
  (0x524148435f4352535f53504f525055, 1),
  (0x43455653504f52505f4352535f53504f525055, 2),
  (0x53454d414e5f4352535f53504f525055, 3),
  (0x455341435f4352535f53504f525055, 4),
  (0x494449425f4352535f53504f525055, 5),
  (0x43455653504f52505f444e415f524148435f4352535f53504f525055, 6),
  (0x4d524f4e5f444e415f455341435f4352535f53504f525055, 7),
  (0x43464e5f4352535f53504f525055, 8),
  (0x434b464e5f4352535f53504f525055, 9),
  (0x46435f434b464e5f4352535f53504f525055, 10),
  (0x524554495f4e4f4e41435f43464e5f4352535f53504f525055, 11),
  (0x43504e495f4352535f53504f525055, 12),
  (0x43534e495f4352535f53504f525055, 13),
  (0x4f565f4352535f53504f525055, 14),
  (0x544e554f435f4352535f53504f525055, 15)]

/-- UnicodeData/uscript_h.py:1-211 the lines of the file. -/
def uscript_h : List Nat :=
 [0x2222222f,
  0x757363726970745f682e70792c206261736564206f6e20757363726970742e682066726f6d20494355,
  0x0,
  0x47656e65726174656420627920486561646572546f507479686f6e2e7079206f6e204175677573742032362c20323032312061742031313a32373a313320414d20485354,
  0x222222,
  0x0,
  0x555343524950545f494e56414c49445f434f4445203d202d31,
  0x555343524950545f434f4d4d4f4e203d203020202320205a79797920,
  0x555343524950545f494e48455249544544203d203120202320205a696e6820,
  0x555343524950545f415241424943203d203220202320204172616220,
  0x555343524950545f41524d454e49414e203d2033202023202041726d6e20,
  0x555343524950545f42454e47414c49203d2034202023202042656e6720,
  0x555343524950545f424f504f4d4f464f203d20352020232020426f706f20,
  0x555343524950545f434845524f4b4545203d203620202320204368657220,
  0x555343524950545f434f50544943203d20372020232020436f707420,
  0x555343524950545f435952494c4c4943203d203820202320204379726c20,
  0x555343524950545f44455345524554203d203920202320204473727420,
  0x555343524950545f444556414e4147415249203d20313020202320204465766120,
  0x555343524950545f455448494f504943203d20313120202320204574686920,
  0x555343524950545f47454f524749414e203d203132202023202047656f7220,
  0x555343524950545f474f54484943203d2031332020232020476f746820,
  0x555343524950545f475245454b203d20313420202320204772656b20,
  0x555343524950545f47554a4152415449203d203135202023202047756a7220,
  0x555343524950545f4755524d554b4849203d20313620202320204775727520,
  0x555343524950545f48414e203d203137202023202048616e6920,
  0x555343524950545f48414e47554c203d203138202023202048616e6720,
  0x555343524950545f484542524557203d20313920202320204865627220,
  0x555343524950545f4849524147414e41203d20323020202320204869726120,
  0x555343524950545f4b414e4e414441203d20323120202320204b6e646120,
  0x555343524950545f4b4154414b414e41203d20323220202320204b616e6120,
  0x555343524950545f4b484d4552203d20323320202320204b686d7220,
  0x555343524950545f4c414f203d20323420202320204c616f6f20,
  0x555343524950545f4c4154494e203d20323520202320204c61746e20,
  0x555343524950545f4d414c4159414c414d203d20323620202320204d6c796d20,
  0x555343524950545f4d4f4e474f4c49414e203d20323720202320204d6f6e6720,
  0x555343524950545f4d59414e4d4152203d20323820202320204d796d7220,
  0x555343524950545f4f4748414d203d20323920202320204f67616d20,
  0x555343524950545f4f4c445f4954414c4943203d20333020202320204974616c20,
  0x555343524950545f4f52495941203d20333120202320204f72796120,
  0x555343524950545f52554e4943203d203332202023202052756e7220,
  0x555343524950545f53494e48414c41203d203333202023202053696e6820,
  0x555343524950545f535952494143203d20333420202320205379726320,
  0x555343524950545f54414d494c203d203335202023202054616d6c20,
  0x555343524950545f54454c554755203d203336202023202054656c7520,
  0x555343524950545f544841414e41203d20333720202320205468616120,
  0x555343524950545f54484149203d20333820202320205468616920,
  0x555343524950545f5449424554414e203d20333920202320205469627420,
  0x555343524950545f43414e414449414e5f41424f524947494e414c203d203430202023202043616e7320,
  0x555343524950545f55434153203d20555343524950545f43414e414449414e5f41424f524947494e414c,
  0x555343524950545f5949203d20343120202320205969696920,
  0x555343524950545f544147414c4f47203d203432202023202054676c6720,
  0x555343524950545f48414e554e4f4f203d203433202023202048616e6f20,
  0x555343524950545f4255484944203d20343420202320204275686420,
  0x555343524950545f54414742414e5741203d20343520202320205461676220,
  0x555343524950545f425241494c4c45203d20343620202320204272616920,
  0x555343524950545f43595052494f54203d20343720202320204370727420,
  0x555343524950545f4c494d4255203d20343820202320204c696d6220,
  0x555343524950545f4c494e4541525f42203d20343920202320204c696e6220,
  0x555343524950545f4f534d414e5941203d20353020202320204f736d6120,
  0x555343524950545f5348415649414e203d20353120202320205368617720,
  0x555343524950545f5441495f4c45203d203532202023202054616c6520,
  0x555343524950545f5547415249544943203d20353320202320205567617220,
  0x555343524950545f4b4154414b414e415f4f525f4849524147414e41203d2035342020232048726b7420,
  0x555343524950545f425547494e455345203d20353520202320204275676920,
  0x555343524950545f474c41474f4c49544943203d2035362020232020476c616720,
  0x555343524950545f4b4841524f5348544849203d20353720202320204b68617220,
  0x555343524950545f53594c4f54495f4e41475249203d203538202023202053796c6f20,
  0x555343524950545f4e45575f5441495f4c5545203d203539202023202054616c7520,
  0x555343524950545f544946494e414748203d203630202023202054666e6720,
  0x555343524950545f4f4c445f5045525349414e203d20363120202320205870656f20,
  0x555343524950545f42414c494e455345203d203632202023202042616c6920,
  0x555343524950545f424154414b203d20363320202320204261746b20,
  0x555343524950545f424c495353594d424f4c53203d2036342020232020426c697320,
  0x555343524950545f425241484d49203d20363520202320204272616820,
  0x555343524950545f4348414d203d20363620202320204368616d20,
  0x555343524950545f4349525448203d20363720202320204369727420,
  0x555343524950545f4f4c445f4348555243485f534c41564f4e49435f435952494c4c4943203d20363820202320204379727320,
  0x555343524950545f44454d4f5449435f454759505449414e203d20363920202320204567796420,
  0x555343524950545f48494552415449435f454759505449414e203d20373020202320204567796820,
  0x555343524950545f454759505449414e5f484945524f474c59504853203d20373120202320204567797020,
  0x555343524950545f4b48555453555249203d203732202023202047656f6b20,
  0x555343524950545f53494d504c49464945445f48414e203d203733202023202048616e7320,
  0x555343524950545f545241444954494f4e414c5f48414e203d203734202023202048616e7420,
  0x555343524950545f5041484157485f484d4f4e47203d2037352020232020486d6e6720,
  0x555343524950545f4f4c445f48554e47415249414e203d203736202023202048756e6720,
  0x555343524950545f484152415050414e5f494e445553203d2037372020232020496e647320,
  0x555343524950545f4a4156414e455345203d20373820202320204a61766120,
  0x555343524950545f4b415941485f4c49203d20373920202320204b616c6920,
  0x555343524950545f4c4154494e5f4652414b545552203d20383020202320204c61746620,
  0x555343524950545f4c4154494e5f4741454c4943203d20383120202320204c61746720,
  0x555343524950545f4c4550434841203d20383220202320204c65706320,
  0x555343524950545f4c494e4541525f41203d20383320202320204c696e6120,
  0x555343524950545f4d414e44414943203d20383420202320204d616e6420,
  0x555343524950545f4d414e444145414e203d20555343524950545f4d414e44414943,
  0x555343524950545f4d4159414e5f484945524f474c59504853203d20383520202320204d61796120,
  0x555343524950545f4d45524f495449435f484945524f474c59504853203d20383620202320204d65726f20,
  0x555343524950545f4d45524f49544943203d20555343524950545f4d45524f495449435f484945524f474c59504853,
  0x555343524950545f4e4b4f203d20383720202320204e6b6f6f20,
  0x555343524950545f4f524b484f4e203d20383820202320204f726b6820,
  0x555343524950545f4f4c445f5045524d4943203d20383920202320205065726d20,
  0x555343524950545f50484147535f5041203d20393020202320205068616720,
  0x555343524950545f50484f454e494349414e203d203931202023202050686e7820,
  0x555343524950545f4d49414f203d2039322020232020506c726420,
  0x555343524950545f50484f4e455449435f504f4c4c415244203d20555343524950545f4d49414f,
  0x555343524950545f524f4e474f524f4e474f203d2039332020232020526f726f20,
  0x555343524950545f534152415449203d20393420202320205361726120,
  0x555343524950545f45535452414e47454c4f5f535952494143203d20393520202320205379726520,
  0x555343524950545f5745535445524e5f535952494143203d20393620202320205379726a20,
  0x555343524950545f4541535445524e5f535952494143203d20393720202320205379726e20,
  0x555343524950545f54454e47574152203d203938202023202054656e6720,
  0x555343524950545f564149203d20393920202320205661696920,
  0x555343524950545f56495349424c455f535045454348203d2031303020202320205669737020,
  0x555343524950545f43554e4549464f524d203d2031303120202320205873757820,
  0x555343524950545f554e5752495454454e5f4c414e475541474553203d2031303220202320205a78787820,
  0x555343524950545f554e4b4e4f574e203d2031303320202320205a7a7a7a20,
  0x555343524950545f43415249414e203d2031303420202320204361726920,
  0x555343524950545f4a4150414e455345203d2031303520202320204a70616e20,
  0x555343524950545f4c414e4e41203d2031303620202320204c616e6120,
  0x555343524950545f4c594349414e203d2031303720202320204c79636920,
  0x555343524950545f4c594449414e203d2031303820202320204c79646920,
  0x555343524950545f4f4c5f4348494b49203d2031303920202320204f6c636b20,
  0x555343524950545f52454a414e47203d203131302020232020526a6e6720,
  0x555343524950545f53415552415348545241203d2031313120202320205361757220,
  0x555343524950545f5349474e5f57524954494e47203d20313132202023202053676e7720,
  0x555343524950545f53554e44414e455345203d20313133202023202053756e6420,
  0x555343524950545f4d4f4f4e203d2031313420202320204d6f6f6e20,
  0x555343524950545f4d45495445495f4d4159454b203d2031313520202320204d74656920,
  0x555343524950545f494d50455249414c5f4152414d414943203d20313136202023202041726d6920,
  0x555343524950545f4156455354414e203d2031313720202320204176737420,
  0x555343524950545f4348414b4d41203d20313138202023202043616b6d20,
  0x555343524950545f4b4f5245414e203d2031313920202320204b6f726520,
  0x555343524950545f4b4149544849203d2031323020202320204b74686920,
  0x555343524950545f4d414e4943484145414e203d2031323120202320204d616e6920,
  0x555343524950545f494e534352495054494f4e414c5f5041484c415649203d20313232202023202050686c6920,
  0x555343524950545f5053414c5445525f5041484c415649203d20313233202023202050686c7020,
  0x555343524950545f424f4f4b5f5041484c415649203d20313234202023202050686c7620,
  0x555343524950545f494e534352495054494f4e414c5f504152544849414e203d2031323520202320205072746920,
  0x555343524950545f53414d41524954414e203d20313236202023202053616d7220,
  0x555343524950545f5441495f56494554203d2031323720202320205461767420,
  0x555343524950545f4d415448454d41544943414c5f4e4f544154494f4e203d2031323820202320205a6d746820,
  0x555343524950545f53594d424f4c53203d2031323920202320205a73796d20,
  0x555343524950545f42414d554d203d20313330202023202042616d7520,
  0x555343524950545f4c495355203d2031333120202320204c69737520,
  0x555343524950545f4e414b48495f47454241203d2031333220202320204e6b676220,
  0x555343524950545f4f4c445f534f5554485f4152414249414e203d2031333320202320205361726220,
  0x555343524950545f42415353415f564148203d2031333420202320204261737320,
  0x555343524950545f4455504c4f59414e203d2031333520202320204475706c20,
  0x555343524950545f454c424153414e203d203133362020232020456c626120,
  0x555343524950545f4752414e544841203d2031333720202320204772616e20,
  0x555343524950545f4b50454c4c45203d2031333820202320204b70656c20,
  0x555343524950545f4c4f4d41203d2031333920202320204c6f6d6120,
  0x555343524950545f4d454e4445203d2031343020202320204d656e6420,
  0x555343524950545f4d45524f495449435f43555253495645203d2031343120202320204d65726320,
  0x555343524950545f4f4c445f4e4f5254485f4152414249414e203d2031343220202320204e61726220,
  0x555343524950545f4e414241544145414e203d2031343320202320204e62617420,
  0x555343524950545f50414c4d5952454e45203d20313434202023202050616c6d20,
  0x555343524950545f4b4855444157414449203d20313435202023202053696e6420,
  0x555343524950545f53494e444849203d20555343524950545f4b4855444157414449,
  0x555343524950545f574152414e475f43495449203d2031343620202320205761726120,
  0x555343524950545f4146414b41203d2031343720202320204166616b20,
  0x555343524950545f4a55524348454e203d2031343820202320204a75726320,
  0x555343524950545f4d524f203d2031343920202320204d726f6f20,
  0x555343524950545f4e55534855203d2031353020202320204e73687520,
  0x555343524950545f53484152414441203d2031353120202320205368726420,
  0x555343524950545f534f52415f534f4d50454e47203d203135322020232020536f726120,
  0x555343524950545f54414b5249203d20313533202023202054616b7220,
  0x555343524950545f54414e475554203d20313534202023202054616e6720,
  0x555343524950545f574f4c454149203d203135352020232020576f6c6520,
  0x555343524950545f414e41544f4c49414e5f484945524f474c59504853203d203135362020232020486c757720,
  0x555343524950545f4b484f4a4b49203d2031353720202320204b686f6a20,
  0x555343524950545f54495248555441203d2031353820202320205469726820,
  0x555343524950545f43415543415349414e5f414c42414e49414e203d2031353920202320204167686220,
  0x555343524950545f4d4148414a414e49203d2031363020202320204d61686a20,
  0x555343524950545f41484f4d203d20313631202023202041686f6d20,
  0x555343524950545f48415452414e203d2031363220202320204861747220,
  0x555343524950545f4d4f4449203d2031363320202320204d6f646920,
  0x555343524950545f4d554c54414e49203d2031363420202320204d756c7420,
  0x555343524950545f5041555f43494e5f484155203d2031363520202320205061756320,
  0x555343524950545f5349444448414d203d2031363620202320205369646420,
  0x555343524950545f41444c414d203d20313637202023202041646c6d20,
  0x555343524950545f424841494b53554b49203d20313638202023202042686b7320,
  0x555343524950545f4d41524348454e203d2031363920202320204d61726320,
  0x555343524950545f4e455741203d2031373020202320204e65776120,
  0x555343524950545f4f53414745203d2031373120202320204f73676520,
  0x555343524950545f48414e5f574954485f424f504f4d4f464f203d20313732202023202048616e6220,
  0x555343524950545f4a414d4f203d2031373320202320204a616d6f20,
  0x555343524950545f53594d424f4c535f454d4f4a49203d2031373420202320205a73796520,
  0x555343524950545f4d41534152414d5f474f4e4449203d203137352020232020476f6e6d20,
  0x555343524950545f534f594f4d424f203d203137362020232020536f796f20,
  0x555343524950545f5a414e4142415a41525f535155415245203d2031373720202320205a616e6220,
  0x555343524950545f444f475241203d203137382020232020446f677220,
  0x555343524950545f47554e4a414c415f474f4e4449203d203137392020232020476f6e6720,
  0x555343524950545f4d414b41534152203d2031383020202320204d616b6120,
  0x555343524950545f4d4544454641494452494e203d2031383120202320204d65646620,
  0x555343524950545f48414e4946495f524f48494e475941203d203138322020232020526f686720,
  0x555343524950545f534f474449414e203d203138332020232020536f676420,
  0x555343524950545f4f4c445f534f474449414e203d203138342020232020536f676f20,
  0x555343524950545f454c594d414943203d203138352020232020456c796d20,
  0x555343524950545f4e5949414b454e475f505541434855455f484d4f4e47203d203138362020232020486d6e7020,
  0x555343524950545f4e414e44494e4147415249203d2031383720202320204e616e6420,
  0x555343524950545f57414e43484f203d2031383820202320205763686f20,
  0x555343524950545f43484f5241534d49414e203d2031383920202320204368727320,
  0x555343524950545f44495645535f414b555255203d2031393020202320204469616b20,
  0x555343524950545f4b484954414e5f534d414c4c5f534352495054203d2031393120202320204b69747320,
  0x555343524950545f59455a494449203d20313932202023202059657a6920,
  0x555343524950545f55534147455f4e4f545f454e434f444544203d2030,
  0x555343524950545f55534147455f554e4b4e4f574e203d2031,
  0x555343524950545f55534147455f4558434c55444544203d2032,
  0x555343524950545f55534147455f4c494d495445445f555345203d2033,
  0x555343524950545f55534147455f41535049524154494f4e414c203d2034,
  0x555343524950545f55534147455f5245434f4d4d454e444544203d2035]

/-- UnicodeData/uscript_h.py: the integer constants with their values. -/
def uscriptConstants : List (Nat × Int) :=
 [(0x45444f435f44494c41564e495f54504952435355, -1),
  (0x4e4f4d4d4f435f54504952435355, 0),
  (0x444554495245484e495f54504952435355, 1),
  (0x4349424152415f54504952435355, 2),
  (0x4e41494e454d52415f54504952435355, 3),
  (0x494c41474e45425f54504952435355, 4),
  (0x4f464f4d4f504f425f54504952435355, 5),
  (0x45454b4f524548435f54504952435355, 6),
  (0x434954504f435f54504952435355, 7),
  (0x43494c4c495259435f54504952435355, 8),
  (0x544552455345445f54504952435355, 9),
  (0x49524147414e415645445f54504952435355, 10),
  (0x4349504f494854455f54504952435355, 11),
  (0x4e414947524f45475f54504952435355, 12),
  (0x434948544f475f54504952435355, 13),
  (0x4b454552475f54504952435355, 14),
  (0x49544152414a55475f54504952435355, 15),
  (0x49484b554d5255475f54504952435355, 16),
  (0x4e41485f54504952435355, 17),
  (0x4c55474e41485f54504952435355, 18),
  (0x5745524245485f54504952435355, 19),
  (0x414e4147415249485f54504952435355, 20),
  (0x4144414e4e414b5f54504952435355, 21),
  (0x414e414b4154414b5f54504952435355, 22),
  (0x52454d484b5f54504952435355, 23),
  (0x4f414c5f54504952435355, 24),
  (0x4e4954414c5f54504952435355, 25),
  (0x4d414c4159414c414d5f54504952435355, 26),
  (0x4e41494c4f474e4f4d5f54504952435355, 27),
  (0x52414d4e41594d5f54504952435355, 28),
  (0x4d4148474f5f54504952435355, 29),
  (0x43494c4154495f444c4f5f54504952435355, 30),
  (0x415949524f5f54504952435355, 31),
  (0x43494e55525f54504952435355, 32),
  (0x414c41484e49535f54504952435355, 33),
  (0x4341495259535f54504952435355, 34),
  (0x4c494d41545f54504952435355, 35),
  (0x5547554c45545f54504952435355, 36),
  (0x414e414148545f54504952435355, 37),
  (0x494148545f54504952435355, 38),
  (0x4e4154454249545f54504952435355, 39),
  (0x4c414e494749524f42415f4e414944414e41435f54504952435355, 40),
  (0x534143555f54504952435355, 40),
  (0x49595f54504952435355, 41),
  (0x474f4c414741545f54504952435355, 42),
  (0x4f4f4e554e41485f54504952435355, 43),
  (0x44494855425f54504952435355, 44),
  (0x41574e41424741545f54504952435355, 45),
  (0x454c4c494152425f54504952435355, 46),
  (0x544f49525059435f54504952435355, 47),
  (0x55424d494c5f54504952435355, 48),
  (0x425f5241454e494c5f54504952435355, 49),
  (0x41594e414d534f5f54504952435355, 50),
  (0x4e4149564148535f54504952435355, 51),
  (0x454c5f4941545f54504952435355, 52),
  (0x43495449524147555f54504952435355, 53),
  (0x414e4147415249485f524f5f414e414b4154414b5f54504952435355, 54),
  (0x4553454e494755425f54504952435355, 55),
  (0x434954494c4f47414c475f54504952435355, 56),
  (0x49485448534f5241484b5f54504952435355, 57),
  (0x495247414e5f49544f4c59535f54504952435355, 58),
  (0x45554c5f4941545f57454e5f54504952435355, 59),
  (0x4847414e494649545f54504952435355, 60),
  (0x4e4149535245505f444c4f5f54504952435355, 61),
  (0x4553454e494c41425f54504952435355, 62),
  (0x4b415441425f54504952435355, 63),
  (0x534c4f424d595353494c425f54504952435355, 64),
  (0x494d484152425f54504952435355, 65),
  (0x4d4148435f54504952435355, 66),
  (0x48545249435f54504952435355, 67),
  (0x43494c4c495259435f43494e4f56414c535f4843525548435f444c4f5f54504952435355, 68),
  (0x4e414954505947455f4349544f4d45445f54504952435355, 69),
  (0x4e414954505947455f43495441524549485f54504952435355, 70),
  (0x534850594c474f524549485f4e414954505947455f54504952435355, 71),
  (0x495255535455484b5f54504952435355, 72),
  (0x4e41485f44454946494c504d49535f54504952435355, 73),
  (0x4e41485f4c414e4f495449444152545f54504952435355, 74),
  (0x474e4f4d485f4857414841505f54504952435355, 75),
  (0x4e41495241474e55485f444c4f5f54504952435355, 76),
  (0x5355444e495f4e415050415241485f54504952435355, 77),
  (0x4553454e4156414a5f54504952435355, 78),
  (0x494c5f484159414b5f54504952435355, 79),
  (0x5255544b4152465f4e4954414c5f54504952435355, 80),
  (0x43494c4541475f4e4954414c5f54504952435355, 81),
  (0x41484350454c5f54504952435355, 82),
  (0x415f5241454e494c5f54504952435355, 83),
  (0x434941444e414d5f54504952435355, 84),
  (0x4e414541444e414d5f54504952435355, 84),
  (0x534850594c474f524549485f4e4159414d5f54504952435355, 85),
  (0x534850594c474f524549485f434954494f52454d5f54504952435355, 86),
  (0x434954494f52454d5f54504952435355, 86),
  (0x4f4b4e5f54504952435355, 87),
  (0x4e4f484b524f5f54504952435355, 88),
  (0x43494d5245505f444c4f5f54504952435355, 89),
  (0x41505f53474148505f54504952435355, 90),
  (0x4e414943494e454f48505f54504952435355, 91),
  (0x4f41494d5f54504952435355, 92),
  (0x4452414c4c4f505f434954454e4f48505f54504952435355, 92),
  (0x4f474e4f524f474e4f525f54504952435355, 93),
  (0x4954415241535f54504952435355, 94),
  (0x4341495259535f4f4c45474e41525453455f54504952435355, 95),
  (0x4341495259535f4e5245545345575f54504952435355, 96),
  (0x4341495259535f4e5245545341455f54504952435355, 97),
  (0x524157474e45545f54504952435355, 98),
  (0x4941565f54504952435355, 99),
  (0x4843454550535f454c42495349565f54504952435355, 100),
  (0x4d524f4649454e55435f54504952435355, 101),
  (0x5345474155474e414c5f4e4554544952574e555f54504952435355, 102),
  (0x4e574f4e4b4e555f54504952435355, 103),
  (0x4e41495241435f54504952435355, 104),
  (0x4553454e4150414a5f54504952435355, 105),
  (0x414e4e414c5f54504952435355, 106),
  (0x4e414943594c5f54504952435355, 107),
  (0x4e414944594c5f54504952435355, 108),
  (0x494b4948435f4c4f5f54504952435355, 109),
  (0x474e414a45525f54504952435355, 110),
  (0x415254485341525541535f54504952435355, 111),
  (0x474e49544952575f4e4749535f54504952435355, 112),
  (0x4553454e41444e55535f54504952435355, 113),
  (0x4e4f4f4d5f54504952435355, 114),
  (0x4b4559414d5f49455449454d5f54504952435355, 115),
  (0x4349414d4152415f4c41495245504d495f54504952435355, 116),
  (0x4e4154534556415f54504952435355, 117),
  (0x414d4b4148435f54504952435355, 118),
  (0x4e4145524f4b5f54504952435355, 119),
  (0x49485449414b5f54504952435355, 120),
  (0x4e4145414843494e414d5f54504952435355, 121),
  (0x4956414c4841505f4c414e4f495450495243534e495f54504952435355, 122),
  (0x4956414c4841505f5245544c4153505f54504952435355, 123),
  (0x4956414c4841505f4b4f4f425f54504952435355, 124),
  (0x4e414948545241505f4c414e4f495450495243534e495f54504952435355, 125),
  (0x4e41544952414d41535f54504952435355, 126),
  (0x544549565f4941545f54504952435355, 127),
  (0x4e4f495441544f4e5f4c41434954414d454854414d5f54504952435355, 128),
  (0x534c4f424d59535f54504952435355, 129),
  (0x4d554d41425f54504952435355, 130),
  (0x5553494c5f54504952435355, 131),
  (0x414245475f49484b414e5f54504952435355, 132),
  (0x4e4149424152415f4854554f535f444c4f5f54504952435355, 133),
  (0x4841565f41535341425f54504952435355, 134),
  (0x4e41594f4c5055445f54504952435355, 135),
  (0x4e415341424c455f54504952435355, 136),
  (0x4148544e4152475f54504952435355, 137),
  (0x454c4c45504b5f54504952435355, 138),
  (0x414d4f4c5f54504952435355, 139),
  (0x45444e454d5f54504952435355, 140),
  (0x455649535255435f434954494f52454d5f54504952435355, 141),
  (0x4e4149424152415f4854524f4e5f444c4f5f54504952435355, 142),
  (0x4e414541544142414e5f54504952435355, 143),
  (0x454e4552594d4c41505f54504952435355, 144),
  (0x49444157414455484b5f54504952435355, 145),
  (0x4948444e49535f54504952435355, 145),
  (0x495449435f474e415241575f54504952435355, 146),
  (0x414b4146415f54504952435355, 147),
  (0x4e45484352554a5f54504952435355, 148),
  (0x4f524d5f54504952435355, 149),
  (0x554853554e5f54504952435355, 150),
  (0x414441524148535f54504952435355, 151),
  (0x474e45504d4f535f41524f535f54504952435355, 152),
  (0x49524b41545f54504952435355, 153),
  (0x5455474e41545f54504952435355, 154),
  (0x4941454c4f575f54504952435355, 155),
  (0x534850594c474f524549485f4e41494c4f54414e415f54504952435355, 156),
  (0x494b4a4f484b5f54504952435355, 157),
  (0x415455485249545f54504952435355, 158),
  (0x4e41494e41424c415f4e41495341435541435f54504952435355, 159),
  (0x494e414a4148414d5f54504952435355, 160),
  (0x4d4f48415f54504952435355, 161),
  (0x4e41525441485f54504952435355, 162),
  (0x49444f4d5f54504952435355, 163),
  (0x494e41544c554d5f54504952435355, 164),
  (0x5541485f4e49435f5541505f54504952435355, 165),
  (0x4d4148444449535f54504952435355, 166),
  (0x4d414c44415f54504952435355, 167),
  (0x494b55534b494148425f54504952435355, 168),
  (0x4e45484352414d5f54504952435355, 169),
  (0x4157454e5f54504952435355, 170),
  (0x454741534f5f54504952435355, 171),
  (0x4f464f4d4f504f425f485449575f4e41485f54504952435355, 172),
  (0x4f4d414a5f54504952435355, 173),
  (0x494a4f4d455f534c4f424d59535f54504952435355, 174),
  (0x49444e4f475f4d41524153414d5f54504952435355, 175),
  (0x4f424d4f594f535f54504952435355, 176),
  (0x4552415551535f52415a4142414e415a5f54504952435355, 177),
  (0x4152474f445f54504952435355, 178),
  (0x49444e4f475f414c414a4e55475f54504952435355, 179),
  (0x524153414b414d5f54504952435355, 180),
  (0x4e4952444941464544454d5f54504952435355, 181),
  (0x4159474e49484f525f4946494e41485f54504952435355, 182),
  (0x4e414944474f535f54504952435355, 183),
  (0x4e414944474f535f444c4f5f54504952435355, 184),
  (0x4349414d594c455f54504952435355, 185),
  (0x474e4f4d485f455548434155505f474e454b4149594e5f54504952435355, 186),
  (0x49524147414e49444e414e5f54504952435355, 187),
  (0x4f48434e41575f54504952435355, 188),
  (0x4e41494d5341524f48435f54504952435355, 189),
  (0x5552554b415f53455649445f54504952435355, 190),
  (0x5450495243535f4c4c414d535f4e415449484b5f54504952435355, 191),
  (0x4944495a45595f54504952435355, 192),
  (0x4445444f434e455f544f4e5f45474153555f54504952435355, 0),
  (0x4e574f4e4b4e555f45474153555f54504952435355, 1),
  (0x444544554c4358455f45474153555f54504952435355, 2),
  (0x4553555f444554494d494c5f45474153555f54504952435355, 3),
  (0x4c414e4f49544152495053415f45474153555f54504952435355, 4),
  (0x4445444e454d4d4f4345525f45474153555f54504952435355, 5)]

/-- UnicodeData/uchar_h.py:1-835 the lines of the file. -/
def uchar_h : List Nat :=
 [0x2222222f,
  0x75636861725f682e70792c206261736564206f6e2075636861722e682066726f6d20494355,
  0x0,
  0x47656e65726174656420627920486561646572546f507479686f6e2e7079206f6e204175677573742032362c20323032312061742031313a32373a313320414d20485354,
  0x222222,
  0x0,
  0x64656620555f4d41534b28783a20696e7429202d3e20696e743a2072657475726e20313c3c78,
  0x0,
  0x555f554e49434f44455f56455253494f4e203d202231332e3022,
  0x55434841525f4d494e5f56414c5545203d2030,
  0x55434841525f4d41585f56414c5545203d203078313066666666,
  0x55434841525f414c5048414245544943203d2030,
  0x55434841525f42494e4152595f5354415254203d2055434841525f414c5048414245544943,
  0x55434841525f41534349495f4845585f4449474954203d2031,
  0x55434841525f424944495f434f4e54524f4c203d2032,
  0x55434841525f424944495f4d4952524f524544203d2033,
  0x55434841525f44415348203d2034,
  0x55434841525f44454641554c545f49474e4f5241424c455f434f44455f504f494e54203d2035,
  0x55434841525f44455052454341544544203d2036,
  0x55434841525f444941435249544943203d2037,
  0x55434841525f455854454e444552203d2038,
  0x55434841525f46554c4c5f434f4d504f534954494f4e5f4558434c5553494f4e203d2039,
  0x55434841525f4752415048454d455f42415345203d203130,
  0x55434841525f4752415048454d455f455854454e44203d203131,
  0x55434841525f4752415048454d455f4c494e4b203d203132,
  0x55434841525f4845585f4449474954203d203133,
  0x55434841525f48595048454e203d203134,
  0x55434841525f49445f434f4e54494e5545203d203135,
  0x55434841525f49445f5354415254203d203136,
  0x55434841525f4944454f47524150484943203d203137,
  0x55434841525f4944535f42494e4152595f4f50455241544f52203d203138,
  0x55434841525f4944535f5452494e4152595f4f50455241544f52203d203139,
  0x55434841525f4a4f494e5f434f4e54524f4c203d203230,
  0x55434841525f4c4f474943414c5f4f524445525f455843455054494f4e203d203231,
  0x55434841525f4c4f57455243415345203d203232,
  0x55434841525f4d415448203d203233,
  0x55434841525f4e4f4e4348415241435445525f434f44455f504f494e54203d203234,
  0x55434841525f51554f544154494f4e5f4d41524b203d203235,
  0x55434841525f5241444943414c203d203236,
  0x55434841525f534f46545f444f54544544203d203237,
  0x55434841525f5445524d494e414c5f50554e4354554154494f4e203d203238,
  0x55434841525f554e49464945445f4944454f4752415048203d203239,
  0x55434841525f555050455243415345203d203330,
  0x55434841525f57484954455f5350414345203d203331,
  0x55434841525f5849445f434f4e54494e5545203d203332,
  0x55434841525f5849445f5354415254203d203333,
  0x55434841525f434153455f53454e534954495645203d203334,
  0x55434841525f535f5445524d203d203335,
  0x55434841525f564152494154494f4e5f53454c4543544f52203d203336,
  0x55434841525f4e46445f494e455254203d203337,
  0x55434841525f4e464b445f494e455254203d203338,
  0x55434841525f4e46435f494e455254203d203339,
  0x55434841525f4e464b435f494e455254203d203430,
  0x55434841525f5345474d454e545f53544152544552203d203431,
  0x55434841525f5041545445524e5f53594e544158203d203432,
  0x55434841525f5041545445524e5f57484954455f5350414345203d203433,
  0x55434841525f504f5349585f414c4e554d203d203434,
  0x55434841525f504f5349585f424c414e4b203d203435,
  0x55434841525f504f5349585f4752415048203d203436,
  0x55434841525f504f5349585f5052494e54203d203437,
  0x55434841525f504f5349585f584449474954203d203438,
  0x55434841525f4341534544203d203439,
  0x55434841525f434153455f49474e4f5241424c45203d203530,
  0x55434841525f4348414e4745535f5748454e5f4c4f5745524341534544203d203531,
  0x55434841525f4348414e4745535f5748454e5f55505045524341534544203d203532,
  0x55434841525f4348414e4745535f5748454e5f5449544c454341534544203d203533,
  0x55434841525f4348414e4745535f5748454e5f43415345464f4c444544203d203534,
  0x55434841525f4348414e4745535f5748454e5f434153454d4150504544203d203535,
  0x55434841525f4348414e4745535f5748454e5f4e464b435f43415345464f4c444544203d203536,
  0x55434841525f454d4f4a49203d203537,
  0x55434841525f454d4f4a495f50524553454e544154494f4e203d203538,
  0x55434841525f454d4f4a495f4d4f444946494552203d203539,
  0x55434841525f454d4f4a495f4d4f4449464945525f42415345203d203630,
  0x55434841525f454d4f4a495f434f4d504f4e454e54203d203631,
  0x55434841525f524547494f4e414c5f494e44494341544f52203d203632,
  0x55434841525f50524550454e4445445f434f4e434154454e4154494f4e5f4d41524b203d203633,
  0x55434841525f455854454e4445445f504943544f47524150484943203d203634,
  0x55434841525f424944495f434c415353203d20307831303030,
  0x55434841525f494e545f5354415254203d2055434841525f424944495f434c415353,
  0x55434841525f424c4f434b203d20307831303031,
  0x55434841525f43414e4f4e4943414c5f434f4d42494e494e475f434c415353203d20307831303032,
  0x55434841525f4445434f4d504f534954494f4e5f54595045203d20307831303033,
  0x55434841525f454153545f415349414e5f5749445448203d20307831303034,
  0x55434841525f47454e4552414c5f43415445474f5259203d20307831303035,
  0x55434841525f4a4f494e494e475f47524f5550203d20307831303036,
  0x55434841525f4a4f494e494e475f54595045203d20307831303037,
  0x55434841525f4c494e455f425245414b203d20307831303038,
  0x55434841525f4e554d455249435f54595045203d20307831303039,
  0x55434841525f534352495054203d20307831303041,
  0x55434841525f48414e47554c5f53594c4c41424c455f54595045203d20307831303042,
  0x55434841525f4e46445f515549434b5f434845434b203d20307831303043,
  0x55434841525f4e464b445f515549434b5f434845434b203d20307831303044,
  0x55434841525f4e46435f515549434b5f434845434b203d20307831303045,
  0x55434841525f4e464b435f515549434b5f434845434b203d20307831303046,
  0x55434841525f4c4541445f43414e4f4e4943414c5f434f4d42494e494e475f434c415353203d20307831303130,
  0x55434841525f545241494c5f43414e4f4e4943414c5f434f4d42494e494e475f434c415353203d20307831303131,
  0x55434841525f4752415048454d455f434c55535445525f425245414b203d20307831303132,
  0x55434841525f53454e54454e43455f425245414b203d20307831303133,
  0x55434841525f574f52445f425245414b203d20307831303134,
  0x55434841525f424944495f5041495245445f425241434b45545f54595045203d20307831303135,
  0x55434841525f494e4449435f504f534954494f4e414c5f43415445474f5259203d20307831303136,
  0x55434841525f494e4449435f53594c4c414249435f43415445474f5259203d20307831303137,
  0x55434841525f564552544943414c5f4f5249454e544154494f4e203d20307831303138,
  0x55434841525f47454e4552414c5f43415445474f52595f4d41534b203d20307832303030,
  0x55434841525f4d41534b5f5354415254203d2055434841525f47454e4552414c5f43415445474f52595f4d41534b,
  0x55434841525f4e554d455249435f56414c5545203d20307833303030,
  0x55434841525f444f55424c455f5354415254203d2055434841525f4e554d455249435f56414c5545,
  0x55434841525f414745203d20307834303030,
  0x55434841525f535452494e475f5354415254203d2055434841525f414745,
  0x55434841525f424944495f4d4952524f52494e475f474c595048203d20307834303031,
  0x55434841525f434153455f464f4c44494e47203d20307834303032,
  0x55434841525f4c4f574552434153455f4d415050494e47203d20307834303034,
  0x55434841525f4e414d45203d20307834303035,
  0x55434841525f53494d504c455f434153455f464f4c44494e47203d20307834303036,
  0x55434841525f53494d504c455f4c4f574552434153455f4d415050494e47203d20307834303037,
  0x55434841525f53494d504c455f5449544c45434153455f4d415050494e47203d20307834303038,
  0x55434841525f53494d504c455f5550504552434153455f4d415050494e47203d20307834303039,
  0x55434841525f5449544c45434153455f4d415050494e47203d20307834303041,
  0x55434841525f5550504552434153455f4d415050494e47203d20307834303043,
  0x55434841525f424944495f5041495245445f425241434b4554203d20307834303044,
  0x55434841525f5343524950545f455854454e53494f4e53203d20307837303030,
  0x55434841525f4f544845525f50524f50455254595f5354415254203d2055434841525f5343524950545f455854454e53494f4e53,
  0x55434841525f494e56414c49445f434f4445203d202d31,
  0x555f554e41535349474e4544203d2030,
  0x555f47454e4552414c5f4f544845525f5459504553203d2030,
  0x555f5550504552434153455f4c4554544552203d2031,
  0x555f4c4f574552434153455f4c4554544552203d2032,
  0x555f5449544c45434153455f4c4554544552203d2033,
  0x555f4d4f4449464945525f4c4554544552203d2034,
  0x555f4f544845525f4c4554544552203d2035,
  0x555f4e4f4e5f53504143494e475f4d41524b203d2036,
  0x555f454e434c4f53494e475f4d41524b203d2037,
  0x555f434f4d42494e494e475f53504143494e475f4d41524b203d2038,
  0x555f444543494d414c5f44494749545f4e554d424552203d2039,
  0x555f4c45545445525f4e554d424552203d203130,
  0x555f4f544845525f4e554d424552203d203131,
  0x555f53504143455f534550415241544f52203d203132,
  0x555f4c494e455f534550415241544f52203d203133,
  0x555f5041524147524150485f534550415241544f52203d203134,
  0x555f434f4e54524f4c5f43484152203d203135,
  0x555f464f524d41545f43484152203d203136,
  0x555f505249564154455f5553455f43484152203d203137,
  0x555f535552524f47415445203d203138,
  0x555f444153485f50554e4354554154494f4e203d203139,
  0x555f53544152545f50554e4354554154494f4e203d203230,
  0x555f454e445f50554e4354554154494f4e203d203231,
  0x555f434f4e4e4543544f525f50554e4354554154494f4e203d203232,
  0x555f4f544845525f50554e4354554154494f4e203d203233,
  0x555f4d4154485f53594d424f4c203d203234,
  0x555f43555252454e43595f53594d424f4c203d203235,
  0x555f4d4f4449464945525f53594d424f4c203d203236,
  0x555f4f544845525f53594d424f4c203d203237,
  0x555f494e495449414c5f50554e4354554154494f4e203d203238,
  0x555f46494e414c5f50554e4354554154494f4e203d203239,
  0x555f434841525f43415445474f52595f434f554e54203d203330,
  0x555f47435f434e5f4d41534b203d20555f4d41534b28555f47454e4552414c5f4f544845525f545950455329,
  0x555f47435f4c555f4d41534b203d20555f4d41534b28555f5550504552434153455f4c455454455229,
  0x555f47435f4c4c5f4d41534b203d20555f4d41534b28555f4c4f574552434153455f4c455454455229,
  0x555f47435f4c545f4d41534b203d20555f4d41534b28555f5449544c45434153455f4c455454455229,
  0x555f47435f4c4d5f4d41534b203d20555f4d41534b28555f4d4f4449464945525f4c455454455229,
  0x555f47435f4c4f5f4d41534b203d20555f4d41534b28555f4f544845525f4c455454455229,
  0x555f47435f4d4e5f4d41534b203d20555f4d41534b28555f4e4f4e5f53504143494e475f4d41524b29,
  0x555f47435f4d455f4d41534b203d20555f4d41534b28555f454e434c4f53494e475f4d41524b29,
  0x555f47435f4d435f4d41534b203d20555f4d41534b28555f434f4d42494e494e475f53504143494e475f4d41524b29,
  0x555f47435f4e445f4d41534b203d20555f4d41534b28555f444543494d414c5f44494749545f4e554d42455229,
  0x555f47435f4e4c5f4d41534b203d20555f4d41534b28555f4c45545445525f4e554d42455229,
  0x555f47435f4e4f5f4d41534b203d20555f4d41534b28555f4f544845525f4e554d42455229,
  0x555f47435f5a535f4d41534b203d20555f4d41534b28555f53504143455f534550415241544f5229,
  0x555f47435f5a4c5f4d41534b203d20555f4d41534b28555f4c494e455f534550415241544f5229,
  0x555f47435f5a505f4d41534b203d20555f4d41534b28555f5041524147524150485f534550415241544f5229,
  0x555f47435f43435f4d41534b203d20555f4d41534b28555f434f4e54524f4c5f4348415229,
  0x555f47435f43465f4d41534b203d20555f4d41534b28555f464f524d41545f4348415229,
  0x555f47435f434f5f4d41534b203d20555f4d41534b28555f505249564154455f5553455f4348415229,
  0x555f47435f43535f4d41534b203d20555f4d41534b28555f535552524f4741544529,
  0x555f47435f50445f4d41534b203d20555f4d41534b28555f444153485f50554e4354554154494f4e29,
  0x555f47435f50535f4d41534b203d20555f4d41534b28555f53544152545f50554e4354554154494f4e29,
  0x555f47435f50455f4d41534b203d20555f4d41534b28555f454e445f50554e4354554154494f4e29,
  0x555f47435f50435f4d41534b203d20555f4d41534b28555f434f4e4e4543544f525f50554e4354554154494f4e29,
  0x555f47435f504f5f4d41534b203d20555f4d41534b28555f4f544845525f50554e4354554154494f4e29,
  0x555f47435f534d5f4d41534b203d20555f4d41534b28555f4d4154485f53594d424f4c29,
  0x555f47435f53435f4d41534b203d20555f4d41534b28555f43555252454e43595f53594d424f4c29,
  0x555f47435f534b5f4d41534b203d20555f4d41534b28555f4d4f4449464945525f53594d424f4c29,
  0x555f47435f534f5f4d41534b203d20555f4d41534b28555f4f544845525f53594d424f4c29,
  0x555f47435f50495f4d41534b203d20555f4d41534b28555f494e495449414c5f50554e4354554154494f4e29,
  0x555f47435f50465f4d41534b203d20555f4d41534b28555f46494e414c5f50554e4354554154494f4e29,
  0x555f47435f4c5f4d41534b203d2028555f47435f4c555f4d41534b7c555f47435f4c4c5f4d41534b7c555f47435f4c545f4d41534b7c555f47435f4c4d5f4d41534b7c555f47435f4c4f5f4d41534b29,
  0x555f47435f4c435f4d41534b203d2028555f47435f4c555f4d41534b7c555f47435f4c4c5f4d41534b7c555f47435f4c545f4d41534b29,
  0x555f47435f4d5f4d41534b203d2028555f47435f4d4e5f4d41534b7c555f47435f4d455f4d41534b7c555f47435f4d435f4d41534b29,
  0x555f47435f4e5f4d41534b203d2028555f47435f4e445f4d41534b7c555f47435f4e4c5f4d41534b7c555f47435f4e4f5f4d41534b29,
  0x555f47435f5a5f4d41534b203d2028555f47435f5a535f4d41534b7c555f47435f5a4c5f4d41534b7c555f47435f5a505f4d41534b29,
  0x555f47435f435f4d41534b203d2028555f47435f434e5f4d41534b7c555f47435f43435f4d41534b7c555f47435f43465f4d41534b7c555f47435f434f5f4d41534b7c555f47435f43535f4d41534b29,
  0x555f47435f505f4d41534b203d2028555f47435f50445f4d41534b7c555f47435f50535f4d41534b7c555f47435f50455f4d41534b7c555f47435f50435f4d41534b7c555f47435f504f5f4d41534b7c555f47435f50495f4d41534b7c555f47435f50465f4d41534b29,
  0x555f47435f535f4d41534b203d2028555f47435f534d5f4d41534b7c555f47435f53435f4d41534b7c555f47435f534b5f4d41534b7c555f47435f534f5f4d41534b29,
  0x555f4c4546545f544f5f5249474854203d2030,
  0x555f52494748545f544f5f4c454654203d2031,
  0x555f4555524f5045414e5f4e554d424552203d2032,
  0x555f4555524f5045414e5f4e554d4245525f534550415241544f52203d2033,
  0x555f4555524f5045414e5f4e554d4245525f5445524d494e41544f52203d2034,
  0x555f4152414249435f4e554d424552203d2035,
  0x555f434f4d4d4f4e5f4e554d4245525f534550415241544f52203d2036,
  0x555f424c4f434b5f534550415241544f52203d2037,
  0x555f5345474d454e545f534550415241544f52203d2038,
  0x555f57484954455f53504143455f4e45555452414c203d2039,
  0x555f4f544845525f4e45555452414c203d203130,
  0x555f4c4546545f544f5f52494748545f454d42454444494e47203d203131,
  0x555f4c4546545f544f5f52494748545f4f56455252494445203d203132,
  0x555f52494748545f544f5f4c4546545f415241424943203d203133,
  0x555f52494748545f544f5f4c4546545f454d42454444494e47203d203134,
  0x555f52494748545f544f5f4c4546545f4f56455252494445203d203135,
  0x555f504f505f444952454354494f4e414c5f464f524d4154203d203136,
  0x555f4449525f4e4f4e5f53504143494e475f4d41524b203d203137,
  0x555f424f554e444152595f4e45555452414c203d203138,
  0x555f46495253545f5354524f4e475f49534f4c415445203d203139,
  0x555f4c4546545f544f5f52494748545f49534f4c415445203d203230,
  0x555f52494748545f544f5f4c4546545f49534f4c415445203d203231,
  0x555f504f505f444952454354494f4e414c5f49534f4c415445203d203232,
  0x555f4250545f4e4f4e45203d2030,
  0x555f4250545f4f50454e203d2031,
  0x555f4250545f434c4f5345203d2032,
  0x55424c4f434b5f4e4f5f424c4f434b203d2030202023205b6e6f6e655d,
  0x55424c4f434b5f42415349435f4c4154494e203d2031202023205b303030305d,
  0x55424c4f434b5f4c4154494e5f315f535550504c454d454e54203d2032202023205b303038305d,
  0x55424c4f434b5f4c4154494e5f455854454e4445445f41203d2033202023205b303130305d,
  0x55424c4f434b5f4c4154494e5f455854454e4445445f42203d2034202023205b303138305d,
  0x55424c4f434b5f4950415f455854454e53494f4e53203d2035202023205b303235305d,
  0x55424c4f434b5f53504143494e475f4d4f4449464945525f4c455454455253203d2036202023205b303242305d,
  0x55424c4f434b5f434f4d42494e494e475f444941435249544943414c5f4d41524b53203d2037202023205b303330305d,
  0x55424c4f434b5f475245454b203d2038202023205b303337305d,
  0x55424c4f434b5f435952494c4c4943203d2039202023205b303430305d,
  0x55424c4f434b5f41524d454e49414e203d203130202023205b303533305d,
  0x55424c4f434b5f484542524557203d203131202023205b303539305d,
  0x55424c4f434b5f415241424943203d203132202023205b303630305d,
  0x55424c4f434b5f535952494143203d203133202023205b303730305d,
  0x55424c4f434b5f544841414e41203d203134202023205b303738305d,
  0x55424c4f434b5f444556414e4147415249203d203135202023205b303930305d,
  0x55424c4f434b5f42454e47414c49203d203136202023205b303938305d,
  0x55424c4f434b5f4755524d554b4849203d203137202023205b304130305d,
  0x55424c4f434b5f47554a4152415449203d203138202023205b304138305d,
  0x55424c4f434b5f4f52495941203d203139202023205b304230305d,
  0x55424c4f434b5f54414d494c203d203230202023205b304238305d,
  0x55424c4f434b5f54454c554755203d203231202023205b304330305d,
  0x55424c4f434b5f4b414e4e414441203d203232202023205b304338305d,
  0x55424c4f434b5f4d414c4159414c414d203d203233202023205b304430305d,
  0x55424c4f434b5f53494e48414c41203d203234202023205b304438305d,
  0x55424c4f434b5f54484149203d203235202023205b304530305d,
  0x55424c4f434b5f4c414f203d203236202023205b304538305d,
  0x55424c4f434b5f5449424554414e203d203237202023205b304630305d,
  0x55424c4f434b5f4d59414e4d4152203d203238202023205b313030305d,
  0x55424c4f434b5f47454f524749414e203d203239202023205b313041305d,
  0x55424c4f434b5f48414e47554c5f4a414d4f203d203330202023205b313130305d,
  0x55424c4f434b5f455448494f504943203d203331202023205b313230305d,
  0x55424c4f434b5f434845524f4b4545203d203332202023205b313341305d,
  0x55424c4f434b5f554e49464945445f43414e414449414e5f41424f524947494e414c5f53594c4c4142494353203d203333202023205b313430305d,
  0x55424c4f434b5f4f4748414d203d203334202023205b313638305d,
  0x55424c4f434b5f52554e4943203d203335202023205b313641305d,
  0x55424c4f434b5f4b484d4552203d203336202023205b313738305d,
  0x55424c4f434b5f4d4f4e474f4c49414e203d203337202023205b313830305d,
  0x55424c4f434b5f4c4154494e5f455854454e4445445f4144444954494f4e414c203d203338202023205b314530305d,
  0x55424c4f434b5f475245454b5f455854454e444544203d203339202023205b314630305d,
  0x55424c4f434b5f47454e4552414c5f50554e4354554154494f4e203d203430202023205b323030305d,
  0x55424c4f434b5f5355504552534352495054535f414e445f53554253435249505453203d203431202023205b323037305d,
  0x55424c4f434b5f43555252454e43595f53594d424f4c53203d203432202023205b323041305d,
  0x55424c4f434b5f434f4d42494e494e475f4d41524b535f464f525f53594d424f4c53203d203433202023205b323044305d,
  0x55424c4f434b5f4c45545445524c494b455f53594d424f4c53203d203434202023205b323130305d,
  0x55424c4f434b5f4e554d4245525f464f524d53203d203435202023205b323135305d,
  0x55424c4f434b5f4152524f5753203d203436202023205b323139305d,
  0x55424c4f434b5f4d415448454d41544943414c5f4f50455241544f5253203d203437202023205b323230305d,
  0x55424c4f434b5f4d495343454c4c414e454f55535f544543484e4943414c203d203438202023205b323330305d,
  0x55424c4f434b5f434f4e54524f4c5f5049435455524553203d203439202023205b323430305d,
  0x55424c4f434b5f4f50544943414c5f4348415241435445525f5245434f474e4954494f4e203d203530202023205b323434305d,
  0x55424c4f434b5f454e434c4f5345445f414c5048414e554d4552494353203d203531202023205b323436305d,
  0x55424c4f434b5f424f585f44524157494e47203d203532202023205b323530305d,
  0x55424c4f434b5f424c4f434b5f454c454d454e5453203d203533202023205b323538305d,
  0x55424c4f434b5f47454f4d45545249435f534841504553203d203534202023205b323541305d,
  0x55424c4f434b5f4d495343454c4c414e454f55535f53594d424f4c53203d203535202023205b323630305d,
  0x55424c4f434b5f44494e4742415453203d203536202023205b323730305d,
  0x55424c4f434b5f425241494c4c455f5041545445524e53203d203537202023205b323830305d,
  0x55424c4f434b5f434a4b5f5241444943414c535f535550504c454d454e54203d203538202023205b324538305d,
  0x55424c4f434b5f4b414e4758495f5241444943414c53203d203539202023205b324630305d,
  0x55424c4f434b5f4944454f475241504849435f4445534352495054494f4e5f43484152414354455253203d203630202023205b324646305d,
  0x55424c4f434b5f434a4b5f53594d424f4c535f414e445f50554e4354554154494f4e203d203631202023205b333030305d,
  0x55424c4f434b5f4849524147414e41203d203632202023205b333034305d,
  0x55424c4f434b5f4b4154414b414e41203d203633202023205b333041305d,
  0x55424c4f434b5f424f504f4d4f464f203d203634202023205b333130305d,
  0x55424c4f434b5f48414e47554c5f434f4d5041544942494c4954595f4a414d4f203d203635202023205b333133305d,
  0x55424c4f434b5f4b414e42554e203d203636202023205b333139305d,
  0x55424c4f434b5f424f504f4d4f464f5f455854454e444544203d203637202023205b333141305d,
  0x55424c4f434b5f454e434c4f5345445f434a4b5f4c4554544552535f414e445f4d4f4e544853203d203638202023205b333230305d,
  0x55424c4f434b5f434a4b5f434f4d5041544942494c495459203d203639202023205b333330305d,
  0x55424c4f434b5f434a4b5f554e49464945445f4944454f4752415048535f455854454e53494f4e5f41203d203730202023205b333430305d,
  0x55424c4f434b5f434a4b5f554e49464945445f4944454f475241504853203d203731202023205b344530305d,
  0x55424c4f434b5f59495f53594c4c41424c4553203d203732202023205b413030305d,
  0x55424c4f434b5f59495f5241444943414c53203d203733202023205b413439305d,
  0x55424c4f434b5f48414e47554c5f53594c4c41424c4553203d203734202023205b414330305d,
  0x55424c4f434b5f484947485f535552524f4741544553203d203735202023205b443830305d,
  0x55424c4f434b5f484947485f505249564154455f5553455f535552524f4741544553203d203736202023205b444238305d,
  0x55424c4f434b5f4c4f575f535552524f4741544553203d203737202023205b444330305d,
  0x55424c4f434b5f505249564154455f5553455f41524541203d203738202023205b453030305d,
  0x55424c4f434b5f505249564154455f555345203d2055424c4f434b5f505249564154455f5553455f41524541,
  0x55424c4f434b5f434a4b5f434f4d5041544942494c4954595f4944454f475241504853203d203739202023205b463930305d,
  0x55424c4f434b5f414c50484142455449435f50524553454e544154494f4e5f464f524d53203d203830202023205b464230305d,
  0x55424c4f434b5f4152414249435f50524553454e544154494f4e5f464f524d535f41203d203831202023205b464235305d,
  0x55424c4f434b5f434f4d42494e494e475f48414c465f4d41524b53203d203832202023205b464532305d,
  0x55424c4f434b5f434a4b5f434f4d5041544942494c4954595f464f524d53203d203833202023205b464533305d,
  0x55424c4f434b5f534d414c4c5f464f524d5f56415249414e5453203d203834202023205b464535305d,
  0x55424c4f434b5f4152414249435f50524553454e544154494f4e5f464f524d535f42203d203835202023205b464537305d,
  0x55424c4f434b5f5350454349414c53203d203836202023205b464646305d,
  0x55424c4f434b5f48414c4657494454485f414e445f46554c4c57494454485f464f524d53203d203837202023205b464630305d,
  0x55424c4f434b5f4f4c445f4954414c4943203d203838202023205b31303330305d,
  0x55424c4f434b5f474f54484943203d203839202023205b31303333305d,
  0x55424c4f434b5f44455345524554203d203930202023205b31303430305d,
  0x55424c4f434b5f42595a414e54494e455f4d55534943414c5f53594d424f4c53203d203931202023205b31443030305d,
  0x55424c4f434b5f4d55534943414c5f53594d424f4c53203d203932202023205b31443130305d,
  0x55424c4f434b5f4d415448454d41544943414c5f414c5048414e554d455249435f53594d424f4c53203d203933202023205b31443430305d,
  0x55424c4f434b5f434a4b5f554e49464945445f4944454f4752415048535f455854454e53494f4e5f42203d203934202023205b32303030305d,
  0x55424c4f434b5f434a4b5f434f4d5041544942494c4954595f4944454f4752415048535f535550504c454d454e54203d203935202023205b32463830305d,
  0x55424c4f434b5f54414753203d203936202023205b45303030305d,
  0x55424c4f434b5f435952494c4c49435f535550504c454d454e54203d203937202023205b303530305d,
  0x55424c4f434b5f435952494c4c49435f535550504c454d454e54415259203d2055424c4f434b5f435952494c4c49435f535550504c454d454e54,
  0x55424c4f434b5f544147414c4f47203d203938202023205b313730305d,
  0x55424c4f434b5f48414e554e4f4f203d203939202023205b313732305d,
  0x55424c4f434b5f4255484944203d20313030202023205b313734305d,
  0x55424c4f434b5f54414742414e5741203d20313031202023205b313736305d,
  0x55424c4f434b5f4d495343454c4c414e454f55535f4d415448454d41544943414c5f53594d424f4c535f41203d20313032202023205b323743305d,
  0x55424c4f434b5f535550504c454d454e54414c5f4152524f57535f41203d20313033202023205b323746305d,
  0x55424c4f434b5f535550504c454d454e54414c5f4152524f57535f42203d20313034202023205b323930305d,
  0x55424c4f434b5f4d495343454c4c414e454f55535f4d415448454d41544943414c5f53594d424f4c535f42203d20313035202023205b323938305d,
  0x55424c4f434b5f535550504c454d454e54414c5f4d415448454d41544943414c5f4f50455241544f5253203d20313036202023205b324130305d,
  0x55424c4f434b5f4b4154414b414e415f50484f4e455449435f455854454e53494f4e53203d20313037202023205b333146305d,
  0x55424c4f434b5f564152494154494f4e5f53454c4543544f5253203d20313038202023205b464530305d,
  0x55424c4f434b5f535550504c454d454e544152595f505249564154455f5553455f415245415f41203d20313039202023205b46303030305d,
  0x55424c4f434b5f535550504c454d454e544152595f505249564154455f5553455f415245415f42203d20313130202023205b3130303030305d,
  0x55424c4f434b5f4c494d4255203d20313131202023205b313930305d,
  0x55424c4f434b5f5441495f4c45203d20313132202023205b313935305d,
  0x55424c4f434b5f4b484d45525f53594d424f4c53203d20313133202023205b313945305d,
  0x55424c4f434b5f50484f4e455449435f455854454e53494f4e53203d20313134202023205b314430305d,
  0x55424c4f434b5f4d495343454c4c414e454f55535f53594d424f4c535f414e445f4152524f5753203d20313135202023205b324230305d,
  0x55424c4f434b5f59494a494e475f484558414752414d5f53594d424f4c53203d20313136202023205b344443305d,
  0x55424c4f434b5f4c494e4541525f425f53594c4c4142415259203d20313137202023205b31303030305d,
  0x55424c4f434b5f4c494e4541525f425f4944454f4752414d53203d20313138202023205b31303038305d,
  0x55424c4f434b5f41454745414e5f4e554d42455253203d20313139202023205b31303130305d,
  0x55424c4f434b5f5547415249544943203d20313230202023205b31303338305d,
  0x55424c4f434b5f5348415649414e203d20313231202023205b31303435305d,
  0x55424c4f434b5f4f534d414e5941203d20313232202023205b31303438305d,
  0x55424c4f434b5f43595052494f545f53594c4c4142415259203d20313233202023205b31303830305d,
  0x55424c4f434b5f5441495f5855414e5f4a494e475f53594d424f4c53203d20313234202023205b31443330305d,
  0x55424c4f434b5f564152494154494f4e5f53454c4543544f52535f535550504c454d454e54203d20313235202023205b45303130305d,
  0x55424c4f434b5f414e4349454e545f475245454b5f4d55534943414c5f4e4f544154494f4e203d20313236202023205b31443230305d,
  0x55424c4f434b5f414e4349454e545f475245454b5f4e554d42455253203d20313237202023205b31303134305d,
  0x55424c4f434b5f4152414249435f535550504c454d454e54203d20313238202023205b303735305d,
  0x55424c4f434b5f425547494e455345203d20313239202023205b314130305d,
  0x55424c4f434b5f434a4b5f5354524f4b4553203d20313330202023205b333143305d,
  0x55424c4f434b5f434f4d42494e494e475f444941435249544943414c5f4d41524b535f535550504c454d454e54203d20313331202023205b314443305d,
  0x55424c4f434b5f434f50544943203d20313332202023205b324338305d,
  0x55424c4f434b5f455448494f5049435f455854454e444544203d20313333202023205b324438305d,
  0x55424c4f434b5f455448494f5049435f535550504c454d454e54203d20313334202023205b313338305d,
  0x55424c4f434b5f47454f524749414e5f535550504c454d454e54203d20313335202023205b324430305d,
  0x55424c4f434b5f474c41474f4c49544943203d20313336202023205b324330305d,
  0x55424c4f434b5f4b4841524f5348544849203d20313337202023205b31304130305d,
  0x55424c4f434b5f4d4f4449464945525f544f4e455f4c455454455253203d20313338202023205b413730305d,
  0x55424c4f434b5f4e45575f5441495f4c5545203d20313339202023205b313938305d,
  0x55424c4f434b5f4f4c445f5045525349414e203d20313430202023205b31303341305d,
  0x55424c4f434b5f50484f4e455449435f455854454e53494f4e535f535550504c454d454e54203d20313431202023205b314438305d,
  0x55424c4f434b5f535550504c454d454e54414c5f50554e4354554154494f4e203d20313432202023205b324530305d,
  0x55424c4f434b5f53594c4f54495f4e41475249203d20313433202023205b413830305d,
  0x55424c4f434b5f544946494e414748203d20313434202023205b324433305d,
  0x55424c4f434b5f564552544943414c5f464f524d53203d20313435202023205b464531305d,
  0x55424c4f434b5f4e4b4f203d20313436202023205b303743305d,
  0x55424c4f434b5f42414c494e455345203d20313437202023205b314230305d,
  0x55424c4f434b5f4c4154494e5f455854454e4445445f43203d20313438202023205b324336305d,
  0x55424c4f434b5f4c4154494e5f455854454e4445445f44203d20313439202023205b413732305d,
  0x55424c4f434b5f50484147535f5041203d20313530202023205b413834305d,
  0x55424c4f434b5f50484f454e494349414e203d20313531202023205b31303930305d,
  0x55424c4f434b5f43554e4549464f524d203d20313532202023205b31323030305d,
  0x55424c4f434b5f43554e4549464f524d5f4e554d424552535f414e445f50554e4354554154494f4e203d20313533202023205b31323430305d,
  0x55424c4f434b5f434f554e54494e475f524f445f4e554d4552414c53203d20313534202023205b31443336305d,
  0x55424c4f434b5f53554e44414e455345203d20313535202023205b314238305d,
  0x55424c4f434b5f4c4550434841203d20313536202023205b314330305d,
  0x55424c4f434b5f4f4c5f4348494b49203d20313537202023205b314335305d,
  0x55424c4f434b5f435952494c4c49435f455854454e4445445f41203d20313538202023205b324445305d,
  0x55424c4f434b5f564149203d20313539202023205b413530305d,
  0x55424c4f434b5f435952494c4c49435f455854454e4445445f42203d20313630202023205b413634305d,
  0x55424c4f434b5f53415552415348545241203d20313631202023205b413838305d,
  0x55424c4f434b5f4b415941485f4c49203d20313632202023205b413930305d,
  0x55424c4f434b5f52454a414e47203d20313633202023205b413933305d,
  0x55424c4f434b5f4348414d203d20313634202023205b414130305d,
  0x55424c4f434b5f414e4349454e545f53594d424f4c53203d20313635202023205b31303139305d,
  0x55424c4f434b5f5048414953544f535f44495343203d20313636202023205b31303144305d,
  0x55424c4f434b5f4c594349414e203d20313637202023205b31303238305d,
  0x55424c4f434b5f43415249414e203d20313638202023205b31303241305d,
  0x55424c4f434b5f4c594449414e203d20313639202023205b31303932305d,
  0x55424c4f434b5f4d41484a4f4e475f54494c4553203d20313730202023205b31463030305d,
  0x55424c4f434b5f444f4d494e4f5f54494c4553203d20313731202023205b31463033305d,
  0x55424c4f434b5f53414d41524954414e203d20313732202023205b303830305d,
  0x55424c4f434b5f554e49464945445f43414e414449414e5f41424f524947494e414c5f53594c4c41424943535f455854454e444544203d20313733202023205b313842305d,
  0x55424c4f434b5f5441495f5448414d203d20313734202023205b314132305d,
  0x55424c4f434b5f56454449435f455854454e53494f4e53203d20313735202023205b314344305d,
  0x55424c4f434b5f4c495355203d20313736202023205b413444305d,
  0x55424c4f434b5f42414d554d203d20313737202023205b413641305d,
  0x55424c4f434b5f434f4d4d4f4e5f494e4449435f4e554d4245525f464f524d53203d20313738202023205b413833305d,
  0x55424c4f434b5f444556414e41474152495f455854454e444544203d20313739202023205b413845305d,
  0x55424c4f434b5f48414e47554c5f4a414d4f5f455854454e4445445f41203d20313830202023205b413936305d,
  0x55424c4f434b5f4a4156414e455345203d20313831202023205b413938305d,
  0x55424c4f434b5f4d59414e4d41525f455854454e4445445f41203d20313832202023205b414136305d,
  0x55424c4f434b5f5441495f56494554203d20313833202023205b414138305d,
  0x55424c4f434b5f4d45455445495f4d4159454b203d20313834202023205b414243305d,
  0x55424c4f434b5f48414e47554c5f4a414d4f5f455854454e4445445f42203d20313835202023205b443742305d,
  0x55424c4f434b5f494d50455249414c5f4152414d414943203d20313836202023205b31303834305d,
  0x55424c4f434b5f4f4c445f534f5554485f4152414249414e203d20313837202023205b31304136305d,
  0x55424c4f434b5f4156455354414e203d20313838202023205b31304230305d,
  0x55424c4f434b5f494e534352495054494f4e414c5f504152544849414e203d20313839202023205b31304234305d,
  0x55424c4f434b5f494e534352495054494f4e414c5f5041484c415649203d20313930202023205b31304236305d,
  0x55424c4f434b5f4f4c445f5455524b4943203d20313931202023205b31304330305d,
  0x55424c4f434b5f52554d495f4e554d4552414c5f53594d424f4c53203d20313932202023205b31304536305d,
  0x55424c4f434b5f4b4149544849203d20313933202023205b31313038305d,
  0x55424c4f434b5f454759505449414e5f484945524f474c59504853203d20313934202023205b31333030305d,
  0x55424c4f434b5f454e434c4f5345445f414c5048414e554d455249435f535550504c454d454e54203d20313935202023205b31463130305d,
  0x55424c4f434b5f454e434c4f5345445f4944454f475241504849435f535550504c454d454e54203d20313936202023205b31463230305d,
  0x55424c4f434b5f434a4b5f554e49464945445f4944454f4752415048535f455854454e53494f4e5f43203d20313937202023205b32413730305d,
  0x55424c4f434b5f4d414e44414943203d20313938202023205b303834305d,
  0x55424c4f434b5f424154414b203d20313939202023205b314243305d,
  0x55424c4f434b5f455448494f5049435f455854454e4445445f41203d20323030202023205b414230305d,
  0x55424c4f434b5f425241484d49203d20323031202023205b31313030305d,
  0x55424c4f434b5f42414d554d5f535550504c454d454e54203d20323032202023205b31363830305d,
  0x55424c4f434b5f4b414e415f535550504c454d454e54203d20323033202023205b31423030305d,
  0x55424c4f434b5f504c4159494e475f4341524453203d20323034202023205b31463041305d,
  0x55424c4f434b5f4d495343454c4c414e454f55535f53594d424f4c535f414e445f504943544f475241504853203d20323035202023205b31463330305d,
  0x55424c4f434b5f454d4f5449434f4e53203d20323036202023205b31463630305d,
  0x55424c4f434b5f5452414e53504f52545f414e445f4d41505f53594d424f4c53203d20323037202023205b31463638305d,
  0x55424c4f434b5f414c4348454d4943414c5f53594d424f4c53203d20323038202023205b31463730305d,
  0x55424c4f434b5f434a4b5f554e49464945445f4944454f4752415048535f455854454e53494f4e5f44203d20323039202023205b32423734305d,
  0x55424c4f434b5f4152414249435f455854454e4445445f41203d20323130202023205b303841305d,
  0x55424c4f434b5f4152414249435f4d415448454d41544943414c5f414c50484142455449435f53594d424f4c53203d20323131202023205b31454530305d,
  0x55424c4f434b5f4348414b4d41203d20323132202023205b31313130305d,
  0x55424c4f434b5f4d45455445495f4d4159454b5f455854454e53494f4e53203d20323133202023205b414145305d,
  0x55424c4f434b5f4d45524f495449435f43555253495645203d20323134202023205b31303941305d,
  0x55424c4f434b5f4d45524f495449435f484945524f474c59504853203d20323135202023205b31303938305d,
  0x55424c4f434b5f4d49414f203d20323136202023205b31364630305d,
  0x55424c4f434b5f53484152414441203d20323137202023205b31313138305d,
  0x55424c4f434b5f534f52415f534f4d50454e47203d20323138202023205b31313044305d,
  0x55424c4f434b5f53554e44414e4553455f535550504c454d454e54203d20323139202023205b314343305d,
  0x55424c4f434b5f54414b5249203d20323230202023205b31313638305d,
  0x55424c4f434b5f42415353415f564148203d20323231202023205b31364144305d,
  0x55424c4f434b5f43415543415349414e5f414c42414e49414e203d20323232202023205b31303533305d,
  0x55424c4f434b5f434f505449435f45504143545f4e554d42455253203d20323233202023205b31303245305d,
  0x55424c4f434b5f434f4d42494e494e475f444941435249544943414c5f4d41524b535f455854454e444544203d20323234202023205b314142305d,
  0x55424c4f434b5f4455504c4f59414e203d20323235202023205b31424330305d,
  0x55424c4f434b5f454c424153414e203d20323236202023205b31303530305d,
  0x55424c4f434b5f47454f4d45545249435f5348415045535f455854454e444544203d20323237202023205b31463738305d,
  0x55424c4f434b5f4752414e544841203d20323238202023205b31313330305d,
  0x55424c4f434b5f4b484f4a4b49203d20323239202023205b31313230305d,
  0x55424c4f434b5f4b4855444157414449203d20323330202023205b31313242305d,
  0x55424c4f434b5f4c4154494e5f455854454e4445445f45203d20323331202023205b414233305d,
  0x55424c4f434b5f4c494e4541525f41203d20323332202023205b31303630305d,
  0x55424c4f434b5f4d4148414a414e49203d20323333202023205b31313135305d,
  0x55424c4f434b5f4d414e4943484145414e203d20323334202023205b31304143305d,
  0x55424c4f434b5f4d454e44455f4b494b414b5549203d20323335202023205b31453830305d,
  0x55424c4f434b5f4d4f4449203d20323336202023205b31313630305d,
  0x55424c4f434b5f4d524f203d20323337202023205b31364134305d,
  0x55424c4f434b5f4d59414e4d41525f455854454e4445445f42203d20323338202023205b413945305d,
  0x55424c4f434b5f4e414241544145414e203d20323339202023205b31303838305d,
  0x55424c4f434b5f4f4c445f4e4f5254485f4152414249414e203d20323430202023205b31304138305d,
  0x55424c4f434b5f4f4c445f5045524d4943203d20323431202023205b31303335305d,
  0x55424c4f434b5f4f524e414d454e54414c5f44494e4742415453203d20323432202023205b31463635305d,
  0x55424c4f434b5f5041484157485f484d4f4e47203d20323433202023205b31364230305d,
  0x55424c4f434b5f50414c4d5952454e45203d20323434202023205b31303836305d,
  0x55424c4f434b5f5041555f43494e5f484155203d20323435202023205b31314143305d,
  0x55424c4f434b5f5053414c5445525f5041484c415649203d20323436202023205b31304238305d,
  0x55424c4f434b5f53484f525448414e445f464f524d41545f434f4e54524f4c53203d20323437202023205b31424341305d,
  0x55424c4f434b5f5349444448414d203d20323438202023205b31313538305d,
  0x55424c4f434b5f53494e48414c415f415243484149435f4e554d42455253203d20323439202023205b31313145305d,
  0x55424c4f434b5f535550504c454d454e54414c5f4152524f57535f43203d20323530202023205b31463830305d,
  0x55424c4f434b5f54495248555441203d20323531202023205b31313438305d,
  0x55424c4f434b5f574152414e475f43495449203d20323532202023205b31313841305d,
  0x55424c4f434b5f41484f4d203d20323533202023205b31313730305d,
  0x55424c4f434b5f414e41544f4c49414e5f484945524f474c59504853203d20323534202023205b31343430305d,
  0x55424c4f434b5f434845524f4b45455f535550504c454d454e54203d20323535202023205b414237305d,
  0x55424c4f434b5f434a4b5f554e49464945445f4944454f4752415048535f455854454e53494f4e5f45203d20323536202023205b32423832305d,
  0x55424c4f434b5f4541524c595f44594e41535449435f43554e4549464f524d203d20323537202023205b31323438305d,
  0x55424c4f434b5f48415452414e203d20323538202023205b31303845305d,
  0x55424c4f434b5f4d554c54414e49203d20323539202023205b31313238305d,
  0x55424c4f434b5f4f4c445f48554e47415249414e203d20323630202023205b31304338305d,
  0x55424c4f434b5f535550504c454d454e54414c5f53594d424f4c535f414e445f504943544f475241504853203d20323631202023205b31463930305d,
  0x55424c4f434b5f535554544f4e5f5349474e57524954494e47203d20323632202023205b31443830305d,
  0x55424c4f434b5f41444c414d203d20323633202023205b31453930305d,
  0x55424c4f434b5f424841494b53554b49203d20323634202023205b31314330305d,
  0x55424c4f434b5f435952494c4c49435f455854454e4445445f43203d20323635202023205b314338305d,
  0x55424c4f434b5f474c41474f4c495449435f535550504c454d454e54203d20323636202023205b31453030305d,
  0x55424c4f434b5f4944454f475241504849435f53594d424f4c535f414e445f50554e4354554154494f4e203d20323637202023205b31364645305d,
  0x55424c4f434b5f4d41524348454e203d20323638202023205b31314337305d,
  0x55424c4f434b5f4d4f4e474f4c49414e5f535550504c454d454e54203d20323639202023205b31313636305d,
  0x55424c4f434b5f4e455741203d20323730202023205b31313430305d,
  0x55424c4f434b5f4f53414745203d20323731202023205b31303442305d,
  0x55424c4f434b5f54414e475554203d20323732202023205b31373030305d,
  0x55424c4f434b5f54414e4755545f434f4d504f4e454e5453203d20323733202023205b31383830305d,
  0x55424c4f434b5f434a4b5f554e49464945445f4944454f4752415048535f455854454e53494f4e5f46203d20323734202023205b32434542305d,
  0x55424c4f434b5f4b414e415f455854454e4445445f41203d20323735202023205b31423130305d,
  0x55424c4f434b5f4d41534152414d5f474f4e4449203d20323736202023205b31314430305d,
  0x55424c4f434b5f4e55534855203d20323737202023205b31423137305d,
  0x55424c4f434b5f534f594f4d424f203d20323738202023205b31314135305d,
  0x55424c4f434b5f5359524941435f535550504c454d454e54203d20323739202023205b303836305d,
  0x55424c4f434b5f5a414e4142415a41525f535155415245203d20323830202023205b31314130305d,
  0x55424c4f434b5f43484553535f53594d424f4c53203d20323831202023205b31464130305d,
  0x55424c4f434b5f444f475241203d20323832202023205b31313830305d,
  0x55424c4f434b5f47454f524749414e5f455854454e444544203d20323833202023205b314339305d,
  0x55424c4f434b5f47554e4a414c415f474f4e4449203d20323834202023205b31314436305d,
  0x55424c4f434b5f48414e4946495f524f48494e475941203d20323835202023205b31304430305d,
  0x55424c4f434b5f494e4449435f53495941515f4e554d42455253203d20323836202023205b31454337305d,
  0x55424c4f434b5f4d414b41534152203d20323837202023205b31314545305d,
  0x55424c4f434b5f4d4159414e5f4e554d4552414c53203d20323838202023205b31443245305d,
  0x55424c4f434b5f4d4544454641494452494e203d20323839202023205b31364534305d,
  0x55424c4f434b5f4f4c445f534f474449414e203d20323930202023205b31304630305d,
  0x55424c4f434b5f534f474449414e203d20323931202023205b31304633305d,
  0x55424c4f434b5f454759505449414e5f484945524f474c5950485f464f524d41545f434f4e54524f4c53203d20323932202023205b31333433305d,
  0x55424c4f434b5f454c594d414943203d20323933202023205b31304645305d,
  0x55424c4f434b5f4e414e44494e4147415249203d20323934202023205b31313941305d,
  0x55424c4f434b5f4e5949414b454e475f505541434855455f484d4f4e47203d20323935202023205b31453130305d,
  0x55424c4f434b5f4f54544f4d414e5f53495941515f4e554d42455253203d20323936202023205b31454430305d,
  0x55424c4f434b5f534d414c4c5f4b414e415f455854454e53494f4e203d20323937202023205b31423133305d,
  0x55424c4f434b5f53594d424f4c535f414e445f504943544f4752415048535f455854454e4445445f41203d20323938202023205b31464137305d,
  0x55424c4f434b5f54414d494c5f535550504c454d454e54203d20323939202023205b31314643305d,
  0x55424c4f434b5f57414e43484f203d20333030202023205b31453243305d,
  0x55424c4f434b5f43484f5241534d49414e203d20333031202023205b31304642305d,
  0x55424c4f434b5f434a4b5f554e49464945445f4944454f4752415048535f455854454e53494f4e5f47203d20333032202023205b33303030305d,
  0x55424c4f434b5f44495645535f414b555255203d20333033202023205b31313930305d,
  0x55424c4f434b5f4b484954414e5f534d414c4c5f534352495054203d20333034202023205b31384230305d,
  0x55424c4f434b5f4c4953555f535550504c454d454e54203d20333035202023205b31314642305d,
  0x55424c4f434b5f53594d424f4c535f464f525f4c45474143595f434f4d505554494e47203d20333036202023205b31464230305d,
  0x55424c4f434b5f54414e4755545f535550504c454d454e54203d20333037202023205b31384430305d,
  0x55424c4f434b5f59455a494449203d20333038202023205b31304538305d,
  0x55424c4f434b5f494e56414c49445f434f4445203d202d31,
  0x555f45415f4e45555452414c203d2030202023205b4e5d,
  0x555f45415f414d424947554f5553203d2031202023205b415d,
  0x555f45415f48414c465749445448203d2032202023205b485d,
  0x555f45415f46554c4c5749445448203d2033202023205b465d,
  0x555f45415f4e4152524f57203d2034202023205b4e615d,
  0x555f45415f57494445203d2035202023205b575d,
  0x555f554e49434f44455f434841525f4e414d45203d2030,
  0x555f455854454e4445445f434841525f4e414d45203d20555f554e49434f44455f434841525f4e414d452b32,
  0x555f434841525f4e414d455f414c494153203d2033,
  0x555f53484f52545f50524f50455254595f4e414d45203d2030,
  0x555f4c4f4e475f50524f50455254595f4e414d45203d2031,
  0x555f44545f4e4f4e45203d2030202023205b6e6f6e655d,
  0x555f44545f43414e4f4e4943414c203d2031202023205b63616e5d,
  0x555f44545f434f4d504154203d2032202023205b636f6d5d,
  0x555f44545f434952434c45203d2033202023205b656e635d,
  0x555f44545f46494e414c203d2034202023205b66696e5d,
  0x555f44545f464f4e54203d2035202023205b666f6e745d,
  0x555f44545f4652414354494f4e203d2036202023205b6672615d,
  0x555f44545f494e495449414c203d2037202023205b696e69745d,
  0x555f44545f49534f4c41544544203d2038202023205b69736f5d,
  0x555f44545f4d454449414c203d2039202023205b6d65645d,
  0x555f44545f4e4152524f57203d203130202023205b6e61725d,
  0x555f44545f4e4f425245414b203d203131202023205b6e625d,
  0x555f44545f534d414c4c203d203132202023205b736d6c5d,
  0x555f44545f535155415245203d203133202023205b7371725d,
  0x555f44545f535542203d203134202023205b7375625d,
  0x555f44545f5355504552203d203135202023205b7375705d,
  0x555f44545f564552544943414c203d203136202023205b766572745d,
  0x555f44545f57494445203d203137202023205b776964655d,
  0x555f4a545f4e4f4e5f4a4f494e494e47203d2030202023205b555d,
  0x555f4a545f4a4f494e5f43415553494e47203d2031202023205b435d,
  0x555f4a545f4455414c5f4a4f494e494e47203d2032202023205b445d,
  0x555f4a545f4c4546545f4a4f494e494e47203d2033202023205b4c5d,
  0x555f4a545f52494748545f4a4f494e494e47203d2034202023205b525d,
  0x555f4a545f5452414e53504152454e54203d2035202023205b545d,
  0x555f4a475f4e4f5f4a4f494e494e475f47524f5550203d2030,
  0x555f4a475f41494e203d2031,
  0x555f4a475f414c415048203d2032,
  0x555f4a475f414c4546203d2033,
  0x555f4a475f424548203d2034,
  0x555f4a475f42455448203d2035,
  0x555f4a475f44414c203d2036,
  0x555f4a475f44414c4154485f52495348203d2037,
  0x555f4a475f45203d2038,
  0x555f4a475f464548203d2039,
  0x555f4a475f46494e414c5f53454d4b415448203d203130,
  0x555f4a475f474146203d203131,
  0x555f4a475f47414d414c203d203132,
  0x555f4a475f484148203d203133,
  0x555f4a475f5445485f4d4152425554415f474f414c203d203134202023203c2040737461626c652049435520342e3620,
  0x555f4a475f48414d5a415f4f4e5f4845485f474f414c203d20555f4a475f5445485f4d4152425554415f474f414c,
  0x555f4a475f4845203d203135,
  0x555f4a475f484548203d203136,
  0x555f4a475f4845485f474f414c203d203137,
  0x555f4a475f48455448203d203138,
  0x555f4a475f4b4146203d203139,
  0x555f4a475f4b415048203d203230,
  0x555f4a475f4b4e4f545445445f484548203d203231,
  0x555f4a475f4c414d203d203232,
  0x555f4a475f4c414d414448203d203233,
  0x555f4a475f4d45454d203d203234,
  0x555f4a475f4d494d203d203235,
  0x555f4a475f4e4f4f4e203d203236,
  0x555f4a475f4e554e203d203237,
  0x555f4a475f5045203d203238,
  0x555f4a475f514146203d203239,
  0x555f4a475f51415048203d203330,
  0x555f4a475f524548203d203331,
  0x555f4a475f52455645525345445f5045203d203332,
  0x555f4a475f534144203d203333,
  0x555f4a475f5341444845203d203334,
  0x555f4a475f5345454e203d203335,
  0x555f4a475f53454d4b415448203d203336,
  0x555f4a475f5348494e203d203337,
  0x555f4a475f53574153485f4b4146203d203338,
  0x555f4a475f5359524941435f574157203d203339,
  0x555f4a475f544148203d203430,
  0x555f4a475f544157203d203431,
  0x555f4a475f5445485f4d415242555441203d203432,
  0x555f4a475f54455448203d203433,
  0x555f4a475f574157203d203434,
  0x555f4a475f594548203d203435,
  0x555f4a475f5945485f424152524545203d203436,
  0x555f4a475f5945485f574954485f5441494c203d203437,
  0x555f4a475f59554448203d203438,
  0x555f4a475f595544485f4845203d203439,
  0x555f4a475f5a41494e203d203530,
  0x555f4a475f4645203d203531202023203c2040737461626c652049435520322e3620,
  0x555f4a475f4b48415048203d203532202023203c2040737461626c652049435520322e3620,
  0x555f4a475f5a4841494e203d203533202023203c2040737461626c652049435520322e3620,
  0x555f4a475f42555255534841534b495f5945485f424152524545203d203534202023203c2040737461626c652049435520342e3020,
  0x555f4a475f46415253495f594548203d203535202023203c2040737461626c652049435520342e3420,
  0x555f4a475f4e5941203d203536202023203c2040737461626c652049435520342e3420,
  0x555f4a475f524f48494e4759415f594548203d203537202023203c2040737461626c652049435520343920,
  0x555f4a475f4d414e4943484145414e5f414c455048203d203538202023203c2040737461626c652049435520353420,
  0x555f4a475f4d414e4943484145414e5f4159494e203d203539202023203c2040737461626c652049435520353420,
  0x555f4a475f4d414e4943484145414e5f42455448203d203630202023203c2040737461626c652049435520353420,
  0x555f4a475f4d414e4943484145414e5f44414c455448203d203631202023203c2040737461626c652049435520353420,
  0x555f4a475f4d414e4943484145414e5f4448414d454448203d203632202023203c2040737461626c652049435520353420,
  0x555f4a475f4d414e4943484145414e5f46495645203d203633202023203c2040737461626c652049435520353420,
  0x555f4a475f4d414e4943484145414e5f47494d454c203d203634202023203c2040737461626c652049435520353420,
  0x555f4a475f4d414e4943484145414e5f48455448203d203635202023203c2040737461626c652049435520353420,
  0x555f4a475f4d414e4943484145414e5f48554e44524544203d203636202023203c2040737461626c652049435520353420,
  0x555f4a475f4d414e4943484145414e5f4b415048203d203637202023203c2040737461626c652049435520353420,
  0x555f4a475f4d414e4943484145414e5f4c414d454448203d203638202023203c2040737461626c652049435520353420,
  0x555f4a475f4d414e4943484145414e5f4d454d203d203639202023203c2040737461626c652049435520353420,
  0x555f4a475f4d414e4943484145414e5f4e554e203d203730202023203c2040737461626c652049435520353420,
  0x555f4a475f4d414e4943484145414e5f4f4e45203d203731202023203c2040737461626c652049435520353420,
  0x555f4a475f4d414e4943484145414e5f5045203d203732202023203c2040737461626c652049435520353420,
  0x555f4a475f4d414e4943484145414e5f514f5048203d203733202023203c2040737461626c652049435520353420,
  0x555f4a475f4d414e4943484145414e5f52455348203d203734202023203c2040737461626c652049435520353420,
  0x555f4a475f4d414e4943484145414e5f5341444845203d203735202023203c2040737461626c652049435520353420,
  0x555f4a475f4d414e4943484145414e5f53414d454b48203d203736202023203c2040737461626c652049435520353420,
  0x555f4a475f4d414e4943484145414e5f544157203d203737202023203c2040737461626c652049435520353420,
  0x555f4a475f4d414e4943484145414e5f54454e203d203738202023203c2040737461626c652049435520353420,
  0x555f4a475f4d414e4943484145414e5f54455448203d203739202023203c2040737461626c652049435520353420,
  0x555f4a475f4d414e4943484145414e5f5448414d454448203d203830202023203c2040737461626c652049435520353420,
  0x555f4a475f4d414e4943484145414e5f5457454e5459203d203831202023203c2040737461626c652049435520353420,
  0x555f4a475f4d414e4943484145414e5f574157203d203832202023203c2040737461626c652049435520353420,
  0x555f4a475f4d414e4943484145414e5f594f4448203d203833202023203c2040737461626c652049435520353420,
  0x555f4a475f4d414e4943484145414e5f5a4159494e203d203834202023203c2040737461626c652049435520353420,
  0x555f4a475f53545241494748545f574157203d203835202023203c2040737461626c652049435520353420,
  0x555f4a475f4146524943414e5f464548203d203836202023203c2040737461626c652049435520353820,
  0x555f4a475f4146524943414e5f4e4f4f4e203d203837202023203c2040737461626c652049435520353820,
  0x555f4a475f4146524943414e5f514146203d203838202023203c2040737461626c652049435520353820,
  0x555f4a475f4d414c4159414c414d5f424841203d203839202023203c2040737461626c652049435520363020,
  0x555f4a475f4d414c4159414c414d5f4a41203d203930202023203c2040737461626c652049435520363020,
  0x555f4a475f4d414c4159414c414d5f4c4c41203d203931202023203c2040737461626c652049435520363020,
  0x555f4a475f4d414c4159414c414d5f4c4c4c41203d203932202023203c2040737461626c652049435520363020,
  0x555f4a475f4d414c4159414c414d5f4e4741203d203933202023203c2040737461626c652049435520363020,
  0x555f4a475f4d414c4159414c414d5f4e4e41203d203934202023203c2040737461626c652049435520363020,
  0x555f4a475f4d414c4159414c414d5f4e4e4e41203d203935202023203c2040737461626c652049435520363020,
  0x555f4a475f4d414c4159414c414d5f4e5941203d203936202023203c2040737461626c652049435520363020,
  0x555f4a475f4d414c4159414c414d5f5241203d203937202023203c2040737461626c652049435520363020,
  0x555f4a475f4d414c4159414c414d5f535341203d203938202023203c2040737461626c652049435520363020,
  0x555f4a475f4d414c4159414c414d5f545441203d203939202023203c2040737461626c652049435520363020,
  0x555f4a475f48414e4946495f524f48494e4759415f4b494e4e415f5941203d20313030202023203c2040737461626c652049435520363220,
  0x555f4a475f48414e4946495f524f48494e4759415f5041203d20313031202023203c2040737461626c652049435520363220,
  0x555f4743425f4f54484552203d2030202023205b58585d,
  0x555f4743425f434f4e54524f4c203d2031202023205b434e5d,
  0x555f4743425f4352203d2032202023205b43525d,
  0x555f4743425f455854454e44203d2033202023205b45585d,
  0x555f4743425f4c203d2034202023205b4c5d,
  0x555f4743425f4c46203d2035202023205b4c465d,
  0x555f4743425f4c56203d2036202023205b4c565d,
  0x555f4743425f4c5654203d2037202023205b4c56545d,
  0x555f4743425f54203d2038202023205b545d,
  0x555f4743425f56203d2039202023205b565d,
  0x555f4743425f53504143494e475f4d41524b203d203130202023205b534d5d,
  0x555f4743425f50524550454e44203d203131202023205b50505d,
  0x555f4743425f524547494f4e414c5f494e44494341544f52203d203132202023205b52495d,
  0x555f4743425f455f42415345203d203133202023205b45425d,
  0x555f4743425f455f424153455f47415a203d203134202023205b4542475d,
  0x555f4743425f455f4d4f444946494552203d203135202023205b454d5d,
  0x555f4743425f474c55455f41465445525f5a574a203d203136202023205b47415a5d,
  0x555f4743425f5a574a203d203137202023205b5a574a5d,
  0x555f57425f4f54484552203d2030202023205b58585d,
  0x555f57425f414c4554544552203d2031202023205b4c455d,
  0x555f57425f464f524d4154203d2032202023205b464f5d,
  0x555f57425f4b4154414b414e41203d2033202023205b4b415d,
  0x555f57425f4d49444c4554544552203d2034202023205b4d4c5d,
  0x555f57425f4d49444e554d203d2035202023205b4d4e5d,
  0x555f57425f4e554d45524943203d2036202023205b4e555d,
  0x555f57425f455854454e444e554d4c4554203d2037202023205b45585d,
  0x555f57425f4352203d2038202023205b43525d,
  0x555f57425f455854454e44203d2039202023205b457874656e645d,
  0x555f57425f4c46203d203130202023205b4c465d,
  0x555f57425f4d49444e554d4c4554203d203131202023205b4d425d,
  0x555f57425f4e45574c494e45203d203132202023205b4e4c5d,
  0x555f57425f524547494f4e414c5f494e44494341544f52203d203133202023205b52495d,
  0x555f57425f4845425245575f4c4554544552203d203134202023205b484c5d,
  0x555f57425f53494e474c455f51554f5445203d203135202023205b53515d,
  0x555f57425f444f55424c455f51554f5445203d203136202023205b44515d,
  0x555f57425f455f42415345203d203137202023205b45425d,
  0x555f57425f455f424153455f47415a203d203138202023205b4542475d,
  0x555f57425f455f4d4f444946494552203d203139202023205b454d5d,
  0x555f57425f474c55455f41465445525f5a574a203d203230202023205b47415a5d,
  0x555f57425f5a574a203d203231202023205b5a574a5d,
  0x555f57425f575345475350414345203d203232202023205b5753454753504143455d,
  0x555f53425f4f54484552203d2030202023205b58585d,
  0x555f53425f415445524d203d2031202023205b41545d,
  0x555f53425f434c4f5345203d2032202023205b434c5d,
  0x555f53425f464f524d4154203d2033202023205b464f5d,
  0x555f53425f4c4f574552203d2034202023205b4c4f5d,
  0x555f53425f4e554d45524943203d2035202023205b4e555d,
  0x555f53425f4f4c4554544552203d2036202023205b4c455d,
  0x555f53425f534550203d2037202023205b53455d,
  0x555f53425f5350203d2038202023205b53505d,
  0x555f53425f535445524d203d2039202023205b53545d,
  0x555f53425f5550504552203d203130202023205b55505d,
  0x555f53425f4352203d203131202023205b43525d,
  0x555f53425f455854454e44203d203132202023205b45585d,
  0x555f53425f4c46203d203133202023205b4c465d,
  0x555f53425f53434f4e54494e5545203d203134202023205b53435d,
  0x555f4c425f554e4b4e4f574e203d2030202023205b58585d,
  0x555f4c425f414d424947554f5553203d2031202023205b41495d,
  0x555f4c425f414c5048414245544943203d2032202023205b414c5d,
  0x555f4c425f425245414b5f424f5448203d2033202023205b42325d,
  0x555f4c425f425245414b5f4146544552203d2034202023205b42415d,
  0x555f4c425f425245414b5f4245464f5245203d2035202023205b42425d,
  0x555f4c425f4d414e4441544f52595f425245414b203d2036202023205b424b5d,
  0x555f4c425f434f4e54494e47454e545f425245414b203d2037202023205b43425d,
  0x555f4c425f434c4f53455f50554e4354554154494f4e203d2038202023205b434c5d,
  0x555f4c425f434f4d42494e494e475f4d41524b203d2039202023205b434d5d,
  0x555f4c425f43415252494147455f52455455524e203d203130202023205b43525d,
  0x555f4c425f4558434c414d4154494f4e203d203131202023205b45585d,
  0x555f4c425f474c5545203d203132202023205b474c5d,
  0x555f4c425f48595048454e203d203133202023205b48595d,
  0x555f4c425f4944454f47524150484943203d203134202023205b49445d,
  0x555f4c425f494e534550415241424c45203d203135202023205b494e5d,
  0x555f4c425f494e534550455241424c45203d20555f4c425f494e534550415241424c45,
  0x555f4c425f494e4649585f4e554d45524943203d203136202023205b49535d,
  0x555f4c425f4c494e455f46454544203d203137202023205b4c465d,
  0x555f4c425f4e4f4e53544152544552203d203138202023205b4e535d,
  0x555f4c425f4e554d45524943203d203139202023205b4e555d,
  0x555f4c425f4f50454e5f50554e4354554154494f4e203d203230202023205b4f505d,
  0x555f4c425f504f53544649585f4e554d45524943203d203231202023205b504f5d,
  0x555f4c425f5052454649585f4e554d45524943203d203232202023205b50525d,
  0x555f4c425f51554f544154494f4e203d203233202023205b51555d,
  0x555f4c425f434f4d504c45585f434f4e54455854203d203234202023205b53415d,
  0x555f4c425f535552524f47415445203d203235202023205b53475d,
  0x555f4c425f5350414345203d203236202023205b53505d,
  0x555f4c425f425245414b5f53594d424f4c53203d203237202023205b53595d,
  0x555f4c425f5a575350414345203d203238202023205b5a575d,
  0x555f4c425f4e4558545f4c494e45203d203239202023205b4e4c5d,
  0x555f4c425f574f52445f4a4f494e4552203d203330202023205b574a5d,
  0x555f4c425f4832203d203331202023205b48325d,
  0x555f4c425f4833203d203332202023205b48335d,
  0x555f4c425f4a4c203d203333202023205b4a4c5d,
  0x555f4c425f4a54203d203334202023205b4a545d,
  0x555f4c425f4a56203d203335202023205b4a565d,
  0x555f4c425f434c4f53455f504152454e544845534953203d203336202023205b43505d,
  0x555f4c425f434f4e444954494f4e414c5f4a4150414e4553455f53544152544552203d203337202023205b434a5d,
  0x555f4c425f4845425245575f4c4554544552203d203338202023205b484c5d,
  0x555f4c425f524547494f4e414c5f494e44494341544f52203d203339202023205b52495d,
  0x555f4c425f455f42415345203d203430202023205b45425d,
  0x555f4c425f455f4d4f444946494552203d203431202023205b454d5d,
  0x555f4c425f5a574a203d203432202023205b5a574a5d,
  0x555f4e545f4e4f4e45203d2030202023205b4e6f6e655d,
  0x555f4e545f444543494d414c203d2031202023205b64655d,
  0x555f4e545f4449474954203d2032202023205b64695d,
  0x555f4e545f4e554d45524943203d2033202023205b6e755d,
  0x555f4853545f4e4f545f4150504c494341424c45203d2030202023205b4e415d,
  0x555f4853545f4c454144494e475f4a414d4f203d2031202023205b4c5d,
  0x555f4853545f564f57454c5f4a414d4f203d2032202023205b565d,
  0x555f4853545f545241494c494e475f4a414d4f203d2033202023205b545d,
  0x555f4853545f4c565f53594c4c41424c45203d2034202023205b4c565d,
  0x555f4853545f4c56545f53594c4c41424c45203d2035202023205b4c56545d,
  0x555f494e50435f4e41203d2030,
  0x555f494e50435f424f54544f4d203d2031,
  0x555f494e50435f424f54544f4d5f414e445f4c454654203d2032,
  0x555f494e50435f424f54544f4d5f414e445f5249474854203d2033,
  0x555f494e50435f4c454654203d2034,
  0x555f494e50435f4c4546545f414e445f5249474854203d2035,
  0x555f494e50435f4f56455253545255434b203d2036,
  0x555f494e50435f5249474854203d2037,
  0x555f494e50435f544f50203d2038,
  0x555f494e50435f544f505f414e445f424f54544f4d203d2039,
  0x555f494e50435f544f505f414e445f424f54544f4d5f414e445f5249474854203d203130,
  0x555f494e50435f544f505f414e445f4c454654203d203131,
  0x555f494e50435f544f505f414e445f4c4546545f414e445f5249474854203d203132,
  0x555f494e50435f544f505f414e445f5249474854203d203133,
  0x555f494e50435f56495355414c5f4f524445525f4c454654203d203134,
  0x555f494e50435f544f505f414e445f424f54544f4d5f414e445f4c454654203d203135,
  0x555f494e53435f4f54484552203d2030,
  0x555f494e53435f4156414752414841203d2031,
  0x555f494e53435f42494e4455203d2032,
  0x555f494e53435f425241484d495f4a4f494e494e475f4e554d424552203d2033,
  0x555f494e53435f43414e54494c4c4154494f4e5f4d41524b203d2034,
  0x555f494e53435f434f4e534f4e414e54203d2035,
  0x555f494e53435f434f4e534f4e414e545f44454144203d2036,
  0x555f494e53435f434f4e534f4e414e545f46494e414c203d2037,
  0x555f494e53435f434f4e534f4e414e545f484541445f4c4554544552203d2038,
  0x555f494e53435f434f4e534f4e414e545f494e495449414c5f504f53544649584544203d2039,
  0x555f494e53435f434f4e534f4e414e545f4b494c4c4552203d203130,
  0x555f494e53435f434f4e534f4e414e545f4d454449414c203d203131,
  0x555f494e53435f434f4e534f4e414e545f504c414345484f4c444552203d203132,
  0x555f494e53435f434f4e534f4e414e545f505245434544494e475f5245504841203d203133,
  0x555f494e53435f434f4e534f4e414e545f5052454649584544203d203134,
  0x555f494e53435f434f4e534f4e414e545f5355424a4f494e4544203d203135,
  0x555f494e53435f434f4e534f4e414e545f53554343454544494e475f5245504841203d203136,
  0x555f494e53435f434f4e534f4e414e545f574954485f535441434b4552203d203137,
  0x555f494e53435f47454d494e4154494f4e5f4d41524b203d203138,
  0x555f494e53435f494e56495349424c455f535441434b4552203d203139,
  0x555f494e53435f4a4f494e4552203d203230,
  0x555f494e53435f4d4f44494659494e475f4c4554544552203d203231,
  0x555f494e53435f4e4f4e5f4a4f494e4552203d203232,
  0x555f494e53435f4e554b5441203d203233,
  0x555f494e53435f4e554d424552203d203234,
  0x555f494e53435f4e554d4245525f4a4f494e4552203d203235,
  0x555f494e53435f505552455f4b494c4c4552203d203236,
  0x555f494e53435f52454749535445525f53484946544552203d203237,
  0x555f494e53435f53594c4c41424c455f4d4f444946494552203d203238,
  0x555f494e53435f544f4e455f4c4554544552203d203239,
  0x555f494e53435f544f4e455f4d41524b203d203330,
  0x555f494e53435f564952414d41203d203331,
  0x555f494e53435f56495341524741203d203332,
  0x555f494e53435f564f57454c203d203333,
  0x555f494e53435f564f57454c5f444550454e44454e54203d203334,
  0x555f494e53435f564f57454c5f494e444550454e44454e54203d203335,
  0x555f564f5f524f5441544544203d2030,
  0x555f564f5f5452414e53464f524d45445f524f5441544544203d2031,
  0x555f564f5f5452414e53464f524d45445f55505249474854203d2032,
  0x555f564f5f55505249474854203d2033]

/-- UnicodeData/uchar_h.py: the integer constants with their values. -/
def ucharConstants : List (Nat × Int) :=
 [(0x45554c41565f4e494d5f5241484355, 0),
  (0x45554c41565f58414d5f5241484355, 1114111),
  (0x43495445424148504c415f5241484355, 0),
  (0x54524154535f5952414e49425f5241484355, 0),
  (0x54494749445f5845485f49494353415f5241484355, 1),
  (0x4c4f52544e4f435f494449425f5241484355, 2),
  (0x4445524f5252494d5f494449425f5241484355, 3),
  (0x485341445f5241484355, 4),
  (0x544e494f505f45444f435f454c4241524f4e47495f544c55414645445f5241484355, 5),
  (0x444554414345525045445f5241484355, 6),
  (0x4349544952434149445f5241484355, 7),
  (0x5245444e455458455f5241484355, 8),
  (0x4e4f4953554c4358455f4e4f495449534f504d4f435f4c4c55465f5241484355, 9),
  (0x455341425f454d4548504152475f5241484355, 10),
  (0x444e455458455f454d4548504152475f5241484355, 11),
  (0x4b4e494c5f454d4548504152475f5241484355, 12),
  (0x54494749445f5845485f5241484355, 13),
  (0x4e45485059485f5241484355, 14),
  (0x45554e49544e4f435f44495f5241484355, 15),
  (0x54524154535f44495f5241484355, 16),
  (0x434948504152474f4544495f5241484355, 17),
  (0x524f54415245504f5f5952414e49425f5344495f5241484355, 18),
  (0x524f54415245504f5f5952414e4952545f5344495f5241484355, 19),
  (0x4c4f52544e4f435f4e494f4a5f5241484355, 20),
  (0x4e4f495450454358455f524544524f5f4c414349474f4c5f5241484355, 21),
  (0x455341435245574f4c5f5241484355, 22),
  (0x4854414d5f5241484355, 23),
  (0x544e494f505f45444f435f5245544341524148434e4f4e5f5241484355, 24),
  (0x4b52414d5f4e4f495441544f55515f5241484355, 25),
  (0x4c4143494441525f5241484355, 26),
  (0x444554544f445f54464f535f5241484355, 27),
  (0x4e4f4954415554434e55505f4c414e494d5245545f5241484355, 28),
  (0x48504152474f4544495f44454946494e555f5241484355, 29),
  (0x4553414352455050555f5241484355, 30),
  (0x45434150535f45544948575f5241484355, 31),
  (0x45554e49544e4f435f4449585f5241484355, 32),
  (0x54524154535f4449585f5241484355, 33),
  (0x4556495449534e45535f455341435f5241484355, 34),
  (0x4d5245545f535f5241484355, 35),
  (0x524f5443454c45535f4e4f495441495241565f5241484355, 36),
  (0x5452454e495f44464e5f5241484355, 37),
  (0x5452454e495f444b464e5f5241484355, 38),
  (0x5452454e495f43464e5f5241484355, 39),
  (0x5452454e495f434b464e5f5241484355, 40),
  (0x524554524154535f544e454d4745535f5241484355, 41),
  (0x5841544e59535f4e5245545441505f5241484355, 42),
  (0x45434150535f45544948575f4e5245545441505f5241484355, 43),
  (0x4d554e4c415f5849534f505f5241484355, 44),
  (0x4b4e414c425f5849534f505f5241484355, 45),
  (0x48504152475f5849534f505f5241484355, 46),
  (0x544e4952505f5849534f505f5241484355, 47),
  (0x5449474944585f5849534f505f5241484355, 48),
  (0x44455341435f5241484355, 49),
  (0x454c4241524f4e47495f455341435f5241484355, 50),
  (0x44455341435245574f4c5f4e4548575f5345474e4148435f5241484355, 51),
  (0x444553414352455050555f4e4548575f5345474e4148435f5241484355, 52),
  (0x4445534143454c5449545f4e4548575f5345474e4148435f5241484355, 53),
  (0x4445444c4f46455341435f4e4548575f5345474e4148435f5241484355, 54),
  (0x44455050414d455341435f4e4548575f5345474e4148435f5241484355, 55),
  (0x4445444c4f46455341435f434b464e5f4e4548575f5345474e4148435f5241484355, 56),
  (0x494a4f4d455f5241484355, 57),
  (0x4e4f495441544e45534552505f494a4f4d455f5241484355, 58),
  (0x5245494649444f4d5f494a4f4d455f5241484355, 59),
  (0x455341425f5245494649444f4d5f494a4f4d455f5241484355, 60),
  (0x544e454e4f504d4f435f494a4f4d455f5241484355, 61),
  (0x524f54414349444e495f4c414e4f494745525f5241484355, 62),
  (0x4b52414d5f4e4f4954414e455441434e4f435f4445444e45504552505f5241484355, 63),
  (0x434948504152474f544349505f4445444e455458455f5241484355, 64),
  (0x5353414c435f494449425f5241484355, 4096),
  (0x54524154535f544e495f5241484355, 4096),
  (0x4b434f4c425f5241484355, 4097),
  (0x5353414c435f474e494e49424d4f435f4c4143494e4f4e41435f5241484355, 4098),
  (0x455059545f4e4f495449534f504d4f4345445f5241484355, 4099),
  (0x48544449575f4e414953415f545341455f5241484355, 4100),
  (0x59524f47455441435f4c4152454e45475f5241484355, 4101),
  (0x50554f52475f474e494e494f4a5f5241484355, 4102),
  (0x455059545f474e494e494f4a5f5241484355, 4103),
  (0x4b414552425f454e494c5f5241484355, 4104),
  (0x455059545f434952454d554e5f5241484355, 4105),
  (0x5450495243535f5241484355, 4106),
  (0x455059545f454c42414c4c59535f4c55474e41485f5241484355, 4107),
  (0x4b434548435f4b434955515f44464e5f5241484355, 4108),
  (0x4b434548435f4b434955515f444b464e5f5241484355, 4109),
  (0x4b434548435f4b434955515f43464e5f5241484355, 4110),
  (0x4b434548435f4b434955515f434b464e5f5241484355, 4111),
  (0x5353414c435f474e494e49424d4f435f4c4143494e4f4e41435f4441454c5f5241484355, 4112),
  (0x5353414c435f474e494e49424d4f435f4c4143494e4f4e41435f4c494152545f5241484355, 4113),
  (0x4b414552425f52455453554c435f454d4548504152475f5241484355, 4114),
  (0x4b414552425f45434e45544e45535f5241484355, 4115),
  (0x4b414552425f44524f575f5241484355, 4116),
  (0x455059545f54454b434152425f4445524941505f494449425f5241484355, 4117),
  (0x59524f47455441435f4c414e4f495449534f505f4349444e495f5241484355, 4118),
  (0x59524f47455441435f434942414c4c59535f4349444e495f5241484355, 4119),
  (0x4e4f495441544e4549524f5f4c414349545245565f5241484355, 4120),
  (0x4b53414d5f59524f47455441435f4c4152454e45475f5241484355, 8192),
  (0x54524154535f4b53414d5f5241484355, 8192),
  (0x45554c41565f434952454d554e5f5241484355, 12288),
  (0x54524154535f454c42554f445f5241484355, 12288),
  (0x4547415f5241484355, 16384),
  (0x54524154535f474e495254535f5241484355, 16384),
  (0x4850594c475f474e49524f5252494d5f494449425f5241484355, 16385),
  (0x474e49444c4f465f455341435f5241484355, 16386),
  (0x474e495050414d5f455341435245574f4c5f5241484355, 16388),
  (0x454d414e5f5241484355, 16389),
  (0x474e49444c4f465f455341435f454c504d49535f5241484355, 16390),
  (0x474e495050414d5f455341435245574f4c5f454c504d49535f5241484355, 16391),
  (0x474e495050414d5f45534143454c5449545f454c504d49535f5241484355, 16392),
  (0x474e495050414d5f4553414352455050555f454c504d49535f5241484355, 16393),
  (0x474e495050414d5f45534143454c5449545f5241484355, 16394),
  (0x474e495050414d5f4553414352455050555f5241484355, 16396),
  (0x54454b434152425f4445524941505f494449425f5241484355, 16397),
  (0x534e4f49534e455458455f5450495243535f5241484355, 28672),
  (0x54524154535f59545245504f52505f524548544f5f5241484355, 28672),
  (0x45444f435f44494c41564e495f5241484355, -1),
  (0x44454e47495353414e555f55, 0),
  (0x53455059545f524548544f5f4c4152454e45475f55, 0),
  (0x52455454454c5f4553414352455050555f55, 1),
  (0x52455454454c5f455341435245574f4c5f55, 2),
  (0x52455454454c5f45534143454c5449545f55, 3),
  (0x52455454454c5f5245494649444f4d5f55, 4),
  (0x52455454454c5f524548544f5f55, 5),
  (0x4b52414d5f474e49434150535f4e4f4e5f55, 6),
  (0x4b52414d5f474e49534f4c434e455f55, 7),
  (0x4b52414d5f474e49434150535f474e494e49424d4f435f55, 8),
  (0x5245424d554e5f54494749445f4c414d494345445f55, 9),
  (0x5245424d554e5f52455454454c5f55, 10),
  (0x5245424d554e5f524548544f5f55, 11),
  (0x524f544152415045535f45434150535f55, 12),
  (0x524f544152415045535f454e494c5f55, 13),
  (0x524f544152415045535f4850415247415241505f55, 14),
  (0x524148435f4c4f52544e4f435f55, 15),
  (0x524148435f54414d524f465f55, 16),
  (0x524148435f4553555f455441564952505f55, 17),
  (0x455441474f525255535f55, 18),
  (0x4e4f4954415554434e55505f485341445f55, 19),
  (0x4e4f4954415554434e55505f54524154535f55, 20),
  (0x4e4f4954415554434e55505f444e455f55, 21),
  (0x4e4f4954415554434e55505f524f5443454e4e4f435f55, 22),
  (0x4e4f4954415554434e55505f524548544f5f55, 23),
  (0x4c4f424d59535f4854414d5f55, 24),
  (0x4c4f424d59535f59434e45525255435f55, 25),
  (0x4c4f424d59535f5245494649444f4d5f55, 26),
  (0x4c4f424d59535f524548544f5f55, 27),
  (0x4e4f4954415554434e55505f4c414954494e495f55, 28),
  (0x4e4f4954415554434e55505f4c414e49465f55, 29),
  (0x544e554f435f59524f47455441435f524148435f55, 30),
  (0x4b53414d5f4e435f43475f55, 1),
  (0x4b53414d5f554c5f43475f55, 2),
  (0x4b53414d5f4c4c5f43475f55, 4),
  (0x4b53414d5f544c5f43475f55, 8),
  (0x4b53414d5f4d4c5f43475f55, 16),
  (0x4b53414d5f4f4c5f43475f55, 32),
  (0x4b53414d5f4e4d5f43475f55, 64),
  (0x4b53414d5f454d5f43475f55, 128),
  (0x4b53414d5f434d5f43475f55, 256),
  (0x4b53414d5f444e5f43475f55, 512),
  (0x4b53414d5f4c4e5f43475f55, 1024),
  (0x4b53414d5f4f4e5f43475f55, 2048),
  (0x4b53414d5f535a5f43475f55, 4096),
  (0x4b53414d5f4c5a5f43475f55, 8192),
  (0x4b53414d5f505a5f43475f55, 16384),
  (0x4b53414d5f43435f43475f55, 32768),
  (0x4b53414d5f46435f43475f55, 65536),
  (0x4b53414d5f4f435f43475f55, 131072),
  (0x4b53414d5f53435f43475f55, 262144),
  (0x4b53414d5f44505f43475f55, 524288),
  (0x4b53414d5f53505f43475f55, 1048576),
  (0x4b53414d5f45505f43475f55, 2097152),
  (0x4b53414d5f43505f43475f55, 4194304),
  (0x4b53414d5f4f505f43475f55, 8388608),
  (0x4b53414d5f4d535f43475f55, 16777216),
  (0x4b53414d5f43535f43475f55, 33554432),
  (0x4b53414d5f4b535f43475f55, 67108864),
  (0x4b53414d5f4f535f43475f55, 134217728),
  (0x4b53414d5f49505f43475f55, 268435456),
  (0x4b53414d5f46505f43475f55, 536870912),
  (0x4b53414d5f4c5f43475f55, 62),
  (0x4b53414d5f434c5f43475f55, 14),
  (0x4b53414d5f4d5f43475f55, 448),
  (0x4b53414d5f4e5f43475f55, 3584),
  (0x4b53414d5f5a5f43475f55, 28672),
  (0x4b53414d5f435f43475f55, 491521),
  (0x4b53414d5f505f43475f55, 821559296),
  (0x4b53414d5f535f43475f55, 251658240),
  (0x54484749525f4f545f5446454c5f55, 0),
  (0x5446454c5f4f545f54484749525f55, 1),
  (0x5245424d554e5f4e4145504f5255455f55, 2),
  (0x524f544152415045535f5245424d554e5f4e4145504f5255455f55, 3),
  (0x524f54414e494d5245545f5245424d554e5f4e4145504f5255455f55, 4),
  (0x5245424d554e5f4349424152415f55, 5),
  (0x524f544152415045535f5245424d554e5f4e4f4d4d4f435f55, 6),
  (0x524f544152415045535f4b434f4c425f55, 7),
  (0x524f544152415045535f544e454d4745535f55, 8),
  (0x4c41525455454e5f45434150535f45544948575f55, 9),
  (0x4c41525455454e5f524548544f5f55, 10),
  (0x474e49444445424d455f54484749525f4f545f5446454c5f55, 11),
  (0x454449525245564f5f54484749525f4f545f5446454c5f55, 12),
  (0x4349424152415f5446454c5f4f545f54484749525f55, 13),
  (0x474e49444445424d455f5446454c5f4f545f54484749525f55, 14),
  (0x454449525245564f5f5446454c5f4f545f54484749525f55, 15),
  (0x54414d524f465f4c414e4f495443455249445f504f505f55, 16),
  (0x4b52414d5f474e49434150535f4e4f4e5f5249445f55, 17),
  (0x4c41525455454e5f595241444e554f425f55, 18),
  (0x4554414c4f53495f474e4f5254535f54535249465f55, 19),
  (0x4554414c4f53495f54484749525f4f545f5446454c5f55, 20),
  (0x4554414c4f53495f5446454c5f4f545f54484749525f55, 21),
  (0x4554414c4f53495f4c414e4f495443455249445f504f505f55, 22),
  (0x454e4f4e5f5450425f55, 0),
  (0x4e45504f5f5450425f55, 1),
  (0x45534f4c435f5450425f55, 2),
  (0x4b434f4c425f4f4e5f4b434f4c4255, 0),
  (0x4e4954414c5f43495341425f4b434f4c4255, 1),
  (0x544e454d454c505055535f315f4e4954414c5f4b434f4c4255, 2),
  (0x415f4445444e455458455f4e4954414c5f4b434f4c4255, 3),
  (0x425f4445444e455458455f4e4954414c5f4b434f4c4255, 4),
  (0x534e4f49534e455458455f4150495f4b434f4c4255, 5),
  (0x5352455454454c5f5245494649444f4d5f474e49434150535f4b434f4c4255, 6),
  (0x534b52414d5f4c414349544952434149445f474e494e49424d4f435f4b434f4c4255, 7),
  (0x4b454552475f4b434f4c4255, 8),
  (0x43494c4c495259435f4b434f4c4255, 9),
  (0x4e41494e454d52415f4b434f4c4255, 10),
  (0x5745524245485f4b434f4c4255, 11),
  (0x4349424152415f4b434f4c4255, 12),
  (0x4341495259535f4b434f4c4255, 13),
  (0x414e414148545f4b434f4c4255, 14),
  (0x49524147414e415645445f4b434f4c4255, 15),
  (0x494c41474e45425f4b434f4c4255, 16),
  (0x49484b554d5255475f4b434f4c4255, 17),
  (0x49544152414a55475f4b434f4c4255, 18),
  (0x415949524f5f4b434f4c4255, 19),
  (0x4c494d41545f4b434f4c4255, 20),
  (0x5547554c45545f4b434f4c4255, 21),
  (0x4144414e4e414b5f4b434f4c4255, 22),
  (0x4d414c4159414c414d5f4b434f4c4255, 23),
  (0x414c41484e49535f4b434f4c4255, 24),
  (0x494148545f4b434f4c4255, 25),
  (0x4f414c5f4b434f4c4255, 26),
  (0x4e4154454249545f4b434f4c4255, 27),
  (0x52414d4e41594d5f4b434f4c4255, 28),
  (0x4e414947524f45475f4b434f4c4255, 29),
  (0x4f4d414a5f4c55474e41485f4b434f4c4255, 30),
  (0x4349504f494854455f4b434f4c4255, 31),
  (0x45454b4f524548435f4b434f4c4255, 32),
  (0x53434942414c4c59535f4c414e494749524f42415f4e414944414e41435f44454946494e555f4b434f4c4255, 33),
  (0x4d4148474f5f4b434f4c4255, 34),
  (0x43494e55525f4b434f4c4255, 35),
  (0x52454d484b5f4b434f4c4255, 36),
  (0x4e41494c4f474e4f4d5f4b434f4c4255, 37),
  (0x4c414e4f4954494444415f4445444e455458455f4e4954414c5f4b434f4c4255, 38),
  (0x4445444e455458455f4b454552475f4b434f4c4255, 39),
  (0x4e4f4954415554434e55505f4c4152454e45475f4b434f4c4255, 40),
  (0x535450495243534255535f444e415f5354504952435352455055535f4b434f4c4255, 41),
  (0x534c4f424d59535f59434e45525255435f4b434f4c4255, 42),
  (0x534c4f424d59535f524f465f534b52414d5f474e494e49424d4f435f4b434f4c4255, 43),
  (0x534c4f424d59535f454b494c52455454454c5f4b434f4c4255, 44),
  (0x534d524f465f5245424d554e5f4b434f4c4255, 45),
  (0x53574f5252415f4b434f4c4255, 46),
  (0x53524f54415245504f5f4c41434954414d454854414d5f4b434f4c4255, 47),
  (0x4c4143494e484345545f53554f454e414c4c454353494d5f4b434f4c4255, 48),
  (0x53455255544349505f4c4f52544e4f435f4b434f4c4255, 49),
  (0x4e4f4954494e474f4345525f5245544341524148435f4c41434954504f5f4b434f4c4255, 50),
  (0x53434952454d554e4148504c415f4445534f4c434e455f4b434f4c4255, 51),
  (0x474e49574152445f584f425f4b434f4c4255, 52),
  (0x53544e454d454c455f4b434f4c425f4b434f4c4255, 53),
  (0x5345504148535f43495254454d4f45475f4b434f4c4255, 54),
  (0x534c4f424d59535f53554f454e414c4c454353494d5f4b434f4c4255, 55),
  (0x53544142474e49445f4b434f4c4255, 56),
  (0x534e5245545441505f454c4c494152425f4b434f4c4255, 57),
  (0x544e454d454c505055535f534c4143494441525f4b4a435f4b434f4c4255, 58),
  (0x534c4143494441525f4958474e414b5f4b434f4c4255, 59),
  (0x535245544341524148435f4e4f4954504952435345445f434948504152474f4544495f4b434f4c4255, 60),
  (0x4e4f4954415554434e55505f444e415f534c4f424d59535f4b4a435f4b434f4c4255, 61),
  (0x414e4147415249485f4b434f4c4255, 62),
  (0x414e414b4154414b5f4b434f4c4255, 63),
  (0x4f464f4d4f504f425f4b434f4c4255, 64),
  (0x4f4d414a5f5954494c4942495441504d4f435f4c55474e41485f4b434f4c4255, 65),
  (0x4e55424e414b5f4b434f4c4255, 66),
  (0x4445444e455458455f4f464f4d4f504f425f4b434f4c4255, 67),
  (0x5348544e4f4d5f444e415f5352455454454c5f4b4a435f4445534f4c434e455f4b434f4c4255, 68),
  (0x5954494c4942495441504d4f435f4b4a435f4b434f4c4255, 69),
  (0x415f4e4f49534e455458455f5348504152474f4544495f44454946494e555f4b4a435f4b434f4c4255, 70),
  (0x5348504152474f4544495f44454946494e555f4b4a435f4b434f4c4255, 71),
  (0x53454c42414c4c59535f49595f4b434f4c4255, 72),
  (0x534c4143494441525f49595f4b434f4c4255, 73),
  (0x53454c42414c4c59535f4c55474e41485f4b434f4c4255, 74),
  (0x53455441474f525255535f484749485f4b434f4c4255, 75),
  (0x53455441474f525255535f4553555f455441564952505f484749485f4b434f4c4255, 76),
  (0x53455441474f525255535f574f4c5f4b434f4c4255, 77),
  (0x414552415f4553555f455441564952505f4b434f4c4255, 78),
  (0x4553555f455441564952505f4b434f4c4255, 78),
  (0x5348504152474f4544495f5954494c4942495441504d4f435f4b4a435f4b434f4c4255, 79),
  (0x534d524f465f4e4f495441544e45534552505f43495445424148504c415f4b434f4c4255, 80),
  (0x415f534d524f465f4e4f495441544e45534552505f4349424152415f4b434f4c4255, 81),
  (0x534b52414d5f464c41485f474e494e49424d4f435f4b434f4c4255, 82),
  (0x534d524f465f5954494c4942495441504d4f435f4b4a435f4b434f4c4255, 83),
  (0x53544e41495241565f4d524f465f4c4c414d535f4b434f4c4255, 84),
  (0x425f534d524f465f4e4f495441544e45534552505f4349424152415f4b434f4c4255, 85),
  (0x534c4149434550535f4b434f4c4255, 86),
  (0x534d524f465f48544449574c4c55465f444e415f4854444957464c41485f4b434f4c4255, 87),
  (0x43494c4154495f444c4f5f4b434f4c4255, 88),
  (0x434948544f475f4b434f4c4255, 89),
  (0x544552455345445f4b434f4c4255, 90),
  (0x534c4f424d59535f4c41434953554d5f454e49544e415a59425f4b434f4c4255, 91),
  (0x534c4f424d59535f4c41434953554d5f4b434f4c4255, 92),
  (0x534c4f424d59535f434952454d554e4148504c415f4c41434954414d454854414d5f4b434f4c4255, 93),
  (0x425f4e4f49534e455458455f5348504152474f4544495f44454946494e555f4b4a435f4b434f4c4255, 94),
  (0x544e454d454c505055535f5348504152474f4544495f5954494c4942495441504d4f435f4b4a435f4b434f4c4255, 95),
  (0x534741545f4b434f4c4255, 96),
  (0x544e454d454c505055535f43494c4c495259435f4b434f4c4255, 97),
  (0x595241544e454d454c505055535f43494c4c495259435f4b434f4c4255, 97),
  (0x474f4c414741545f4b434f4c4255, 98),
  (0x4f4f4e554e41485f4b434f4c4255, 99),
  (0x44494855425f4b434f4c4255, 100),
  (0x41574e41424741545f4b434f4c4255, 101),
  (0x415f534c4f424d59535f4c41434954414d454854414d5f53554f454e414c4c454353494d5f4b434f4c4255, 102),
  (0x415f53574f5252415f4c41544e454d454c505055535f4b434f4c4255, 103),
  (0x425f53574f5252415f4c41544e454d454c505055535f4b434f4c4255, 104),
  (0x425f534c4f424d59535f4c41434954414d454854414d5f53554f454e414c4c454353494d5f4b434f4c4255, 105),
  (0x53524f54415245504f5f4c41434954414d454854414d5f4c41544e454d454c505055535f4b434f4c4255, 106),
  (0x534e4f49534e455458455f434954454e4f48505f414e414b4154414b5f4b434f4c4255, 107),
  (0x53524f5443454c45535f4e4f495441495241565f4b434f4c4255, 108),
  (0x415f414552415f4553555f455441564952505f595241544e454d454c505055535f4b434f4c4255, 109),
  (0x425f414552415f4553555f455441564952505f595241544e454d454c505055535f4b434f4c4255, 110),
  (0x55424d494c5f4b434f4c4255, 111),
  (0x454c5f4941545f4b434f4c4255, 112),
  (0x534c4f424d59535f52454d484b5f4b434f4c4255, 113),
  (0x534e4f49534e455458455f434954454e4f48505f4b434f4c4255, 114),
  (0x53574f5252415f444e415f534c4f424d59535f53554f454e414c4c454353494d5f4b434f4c4255, 115),
  (0x534c4f424d59535f4d415247415845485f474e494a49595f4b434f4c4255, 116),
  (0x59524142414c4c59535f425f5241454e494c5f4b434f4c4255, 117),
  (0x534d4152474f4544495f425f5241454e494c5f4b434f4c4255, 118),
  (0x535245424d554e5f4e41454745415f4b434f4c4255, 119),
  (0x43495449524147555f4b434f4c4255, 120),
  (0x4e4149564148535f4b434f4c4255, 121),
  (0x41594e414d534f5f4b434f4c4255, 122),
  (0x59524142414c4c59535f544f49525059435f4b434f4c4255, 123),
  (0x534c4f424d59535f474e494a5f4e4155585f4941545f4b434f4c4255, 124),
  (0x544e454d454c505055535f53524f5443454c45535f4e4f495441495241565f4b434f4c4255, 125),
  (0x4e4f495441544f4e5f4c41434953554d5f4b454552475f544e4549434e415f4b434f4c4255, 126),
  (0x535245424d554e5f4b454552475f544e4549434e415f4b434f4c4255, 127),
  (0x544e454d454c505055535f4349424152415f4b434f4c4255, 128),
  (0x4553454e494755425f4b434f4c4255, 129),
  (0x53454b4f5254535f4b4a435f4b434f4c4255, 130),
  (0x544e454d454c505055535f534b52414d5f4c414349544952434149445f474e494e49424d4f435f4b434f4c4255, 131),
  (0x434954504f435f4b434f4c4255, 132),
  (0x4445444e455458455f4349504f494854455f4b434f4c4255, 133),
  (0x544e454d454c505055535f4349504f494854455f4b434f4c4255, 134),
  (0x544e454d454c505055535f4e414947524f45475f4b434f4c4255, 135),
  (0x434954494c4f47414c475f4b434f4c4255, 136),
  (0x49485448534f5241484b5f4b434f4c4255, 137),
  (0x5352455454454c5f454e4f545f5245494649444f4d5f4b434f4c4255, 138),
  (0x45554c5f4941545f57454e5f4b434f4c4255, 139),
  (0x4e4149535245505f444c4f5f4b434f4c4255, 140),
  (0x544e454d454c505055535f534e4f49534e455458455f434954454e4f48505f4b434f4c4255, 141),
  (0x4e4f4954415554434e55505f4c41544e454d454c505055535f4b434f4c4255, 142),
  (0x495247414e5f49544f4c59535f4b434f4c4255, 143),
  (0x4847414e494649545f4b434f4c4255, 144),
  (0x534d524f465f4c414349545245565f4b434f4c4255, 145),
  (0x4f4b4e5f4b434f4c4255, 146),
  (0x4553454e494c41425f4b434f4c4255, 147),
  (0x435f4445444e455458455f4e4954414c5f4b434f4c4255, 148),
  (0x445f4445444e455458455f4e4954414c5f4b434f4c4255, 149),
  (0x41505f53474148505f4b434f4c4255, 150),
  (0x4e414943494e454f48505f4b434f4c4255, 151),
  (0x4d524f4649454e55435f4b434f4c4255, 152),
  (0x4e4f4954415554434e55505f444e415f535245424d554e5f4d524f4649454e55435f4b434f4c4255, 153),
  (0x534c4152454d554e5f444f525f474e49544e554f435f4b434f4c4255, 154),
  (0x4553454e41444e55535f4b434f4c4255, 155),
  (0x41484350454c5f4b434f4c4255, 156),
  (0x494b4948435f4c4f5f4b434f4c4255, 157),
  (0x415f4445444e455458455f43494c4c495259435f4b434f4c4255, 158),
  (0x4941565f4b434f4c4255, 159),
  (0x425f4445444e455458455f43494c4c495259435f4b434f4c4255, 160),
  (0x415254485341525541535f4b434f4c4255, 161),
  (0x494c5f484159414b5f4b434f4c4255, 162),
  (0x474e414a45525f4b434f4c4255, 163),
  (0x4d4148435f4b434f4c4255, 164),
  (0x534c4f424d59535f544e4549434e415f4b434f4c4255, 165),
  (0x435349445f534f5453494148505f4b434f4c4255, 166),
  (0x4e414943594c5f4b434f4c4255, 167),
  (0x4e41495241435f4b434f4c4255, 168),
  (0x4e414944594c5f4b434f4c4255, 169),
  (0x53454c49545f474e4f4a48414d5f4b434f4c4255, 170),
  (0x53454c49545f4f4e494d4f445f4b434f4c4255, 171),
  (0x4e41544952414d41535f4b434f4c4255, 172),
  (0x4445444e455458455f53434942414c4c59535f4c414e494749524f42415f4e414944414e41435f44454946494e555f4b434f4c4255, 173),
  (0x4d4148545f4941545f4b434f4c4255, 174),
  (0x534e4f49534e455458455f43494445565f4b434f4c4255, 175),
  (0x5553494c5f4b434f4c4255, 176),
  (0x4d554d41425f4b434f4c4255, 177),
  (0x534d524f465f5245424d554e5f4349444e495f4e4f4d4d4f435f4b434f4c4255, 178),
  (0x4445444e455458455f49524147414e415645445f4b434f4c4255, 179),
  (0x415f4445444e455458455f4f4d414a5f4c55474e41485f4b434f4c4255, 180),
  (0x4553454e4156414a5f4b434f4c4255, 181),
  (0x415f4445444e455458455f52414d4e41594d5f4b434f4c4255, 182),
  (0x544549565f4941545f4b434f4c4255, 183),
  (0x4b4559414d5f49455445454d5f4b434f4c4255, 184),
  (0x425f4445444e455458455f4f4d414a5f4c55474e41485f4b434f4c4255, 185),
  (0x4349414d4152415f4c41495245504d495f4b434f4c4255, 186),
  (0x4e4149424152415f4854554f535f444c4f5f4b434f4c4255, 187),
  (0x4e4154534556415f4b434f4c4255, 188),
  (0x4e414948545241505f4c414e4f495450495243534e495f4b434f4c4255, 189),
  (0x4956414c4841505f4c414e4f495450495243534e495f4b434f4c4255, 190),
  (0x43494b5255545f444c4f5f4b434f4c4255, 191),
  (0x534c4f424d59535f4c4152454d554e5f494d55525f4b434f4c4255, 192),
  (0x49485449414b5f4b434f4c4255, 193),
  (0x534850594c474f524549485f4e414954505947455f4b434f4c4255, 194),
  (0x544e454d454c505055535f434952454d554e4148504c415f4445534f4c434e455f4b434f4c4255, 195),
  (0x544e454d454c505055535f434948504152474f4544495f4445534f4c434e455f4b434f4c4255, 196),
  (0x435f4e4f49534e455458455f5348504152474f4544495f44454946494e555f4b4a435f4b434f4c4255, 197),
  (0x434941444e414d5f4b434f4c4255, 198),
  (0x4b415441425f4b434f4c4255, 199),
  (0x415f4445444e455458455f4349504f494854455f4b434f4c4255, 200),
  (0x494d484152425f4b434f4c4255, 201),
  (0x544e454d454c505055535f4d554d41425f4b434f4c4255, 202),
  (0x544e454d454c505055535f414e414b5f4b434f4c4255, 203),
  (0x53445241435f474e4959414c505f4b434f4c4255, 204),
  (0x5348504152474f544349505f444e415f534c4f424d59535f53554f454e414c4c454353494d5f4b434f4c4255, 205),
  (0x534e4f4349544f4d455f4b434f4c4255, 206),
  (0x534c4f424d59535f50414d5f444e415f54524f50534e4152545f4b434f4c4255, 207),
  (0x534c4f424d59535f4c4143494d4548434c415f4b434f4c4255, 208),
  (0x445f4e4f49534e455458455f5348504152474f4544495f44454946494e555f4b4a435f4b434f4c4255, 209),
  (0x415f4445444e455458455f4349424152415f4b434f4c4255, 210),
  (0x534c4f424d59535f43495445424148504c415f4c41434954414d454854414d5f4349424152415f4b434f4c4255, 211),
  (0x414d4b4148435f4b434f4c4255, 212),
  (0x534e4f49534e455458455f4b4559414d5f49455445454d5f4b434f4c4255, 213),
  (0x455649535255435f434954494f52454d5f4b434f4c4255, 214),
  (0x534850594c474f524549485f434954494f52454d5f4b434f4c4255, 215),
  (0x4f41494d5f4b434f4c4255, 216),
  (0x414441524148535f4b434f4c4255, 217),
  (0x474e45504d4f535f41524f535f4b434f4c4255, 218),
  (0x544e454d454c505055535f4553454e41444e55535f4b434f4c4255, 219),
  (0x49524b41545f4b434f4c4255, 220),
  (0x4841565f41535341425f4b434f4c4255, 221),
  (0x4e41494e41424c415f4e41495341435541435f4b434f4c4255, 222),
  (0x535245424d554e5f54434150455f434954504f435f4b434f4c4255, 223),
  (0x4445444e455458455f534b52414d5f4c414349544952434149445f474e494e49424d4f435f4b434f4c4255, 224),
  (0x4e41594f4c5055445f4b434f4c4255, 225),
  (0x4e415341424c455f4b434f4c4255, 226),
  (0x4445444e455458455f5345504148535f43495254454d4f45475f4b434f4c4255, 227),
  (0x4148544e4152475f4b434f4c4255, 228),
  (0x494b4a4f484b5f4b434f4c4255, 229),
  (0x49444157414455484b5f4b434f4c4255, 230),
  (0x455f4445444e455458455f4e4954414c5f4b434f4c4255, 231),
  (0x415f5241454e494c5f4b434f4c4255, 232),
  (0x494e414a4148414d5f4b434f4c4255, 233),
  (0x4e4145414843494e414d5f4b434f4c4255, 234),
  (0x49554b414b494b5f45444e454d5f4b434f4c4255, 235),
  (0x49444f4d5f4b434f4c4255, 236),
  (0x4f524d5f4b434f4c4255, 237),
  (0x425f4445444e455458455f52414d4e41594d5f4b434f4c4255, 238),
  (0x4e414541544142414e5f4b434f4c4255, 239),
  (0x4e4149424152415f4854524f4e5f444c4f5f4b434f4c4255, 240),
  (0x43494d5245505f444c4f5f4b434f4c4255, 241),
  (0x53544142474e49445f4c41544e454d414e524f5f4b434f4c4255, 242),
  (0x474e4f4d485f4857414841505f4b434f4c4255, 243),
  (0x454e4552594d4c41505f4b434f4c4255, 244),
  (0x5541485f4e49435f5541505f4b434f4c4255, 245),
  (0x4956414c4841505f5245544c4153505f4b434f4c4255, 246),
  (0x534c4f52544e4f435f54414d524f465f444e414854524f48535f4b434f4c4255, 247),
  (0x4d4148444449535f4b434f4c4255, 248),
  (0x535245424d554e5f434941484352415f414c41484e49535f4b434f4c4255, 249),
  (0x435f53574f5252415f4c41544e454d454c505055535f4b434f4c4255, 250),
  (0x415455485249545f4b434f4c4255, 251),
  (0x495449435f474e415241575f4b434f4c4255, 252),
  (0x4d4f48415f4b434f4c4255, 253),
  (0x534850594c474f524549485f4e41494c4f54414e415f4b434f4c4255, 254),
  (0x544e454d454c505055535f45454b4f524548435f4b434f4c4255, 255),
  (0x455f4e4f49534e455458455f5348504152474f4544495f44454946494e555f4b4a435f4b434f4c4255, 256),
  (0x4d524f4649454e55435f43495453414e59445f594c5241455f4b434f4c4255, 257),
  (0x4e41525441485f4b434f4c4255, 258),
  (0x494e41544c554d5f4b434f4c4255, 259),
  (0x4e41495241474e55485f444c4f5f4b434f4c4255, 260),
  (0x5348504152474f544349505f444e415f534c4f424d59535f4c41544e454d454c505055535f4b434f4c4255, 261),
  (0x474e49544952574e4749535f4e4f545455535f4b434f4c4255, 262),
  (0x4d414c44415f4b434f4c4255, 263),
  (0x494b55534b494148425f4b434f4c4255, 264),
  (0x435f4445444e455458455f43494c4c495259435f4b434f4c4255, 265),
  (0x544e454d454c505055535f434954494c4f47414c475f4b434f4c4255, 266),
  (0x4e4f4954415554434e55505f444e415f534c4f424d59535f434948504152474f4544495f4b434f4c4255, 267),
  (0x4e45484352414d5f4b434f4c4255, 268),
  (0x544e454d454c505055535f4e41494c4f474e4f4d5f4b434f4c4255, 269),
  (0x4157454e5f4b434f4c4255, 270),
  (0x454741534f5f4b434f4c4255, 271),
  (0x5455474e41545f4b434f4c4255, 272),
  (0x53544e454e4f504d4f435f5455474e41545f4b434f4c4255, 273),
  (0x465f4e4f49534e455458455f5348504152474f4544495f44454946494e555f4b4a435f4b434f4c4255, 274),
  (0x415f4445444e455458455f414e414b5f4b434f4c4255, 275),
  (0x49444e4f475f4d41524153414d5f4b434f4c4255, 276),
  (0x554853554e5f4b434f4c4255, 277),
  (0x4f424d4f594f535f4b434f4c4255, 278),
  (0x544e454d454c505055535f4341495259535f4b434f4c4255, 279),
  (0x4552415551535f52415a4142414e415a5f4b434f4c4255, 280),
  (0x534c4f424d59535f53534548435f4b434f4c4255, 281),
  (0x4152474f445f4b434f4c4255, 282),
  (0x4445444e455458455f4e414947524f45475f4b434f4c4255, 283),
  (0x49444e4f475f414c414a4e55475f4b434f4c4255, 284),
  (0x4159474e49484f525f4946494e41485f4b434f4c4255, 285),
  (0x535245424d554e5f51415949535f4349444e495f4b434f4c4255, 286),
  (0x524153414b414d5f4b434f4c4255, 287),
  (0x534c4152454d554e5f4e4159414d5f4b434f4c4255, 288),
  (0x4e4952444941464544454d5f4b434f4c4255, 289),
  (0x4e414944474f535f444c4f5f4b434f4c4255, 290),
  (0x4e414944474f535f4b434f4c4255, 291),
  (0x534c4f52544e4f435f54414d524f465f4850594c474f524549485f4e414954505947455f4b434f4c4255, 292),
  (0x4349414d594c455f4b434f4c4255, 293),
  (0x49524147414e49444e414e5f4b434f4c4255, 294),
  (0x474e4f4d485f455548434155505f474e454b4149594e5f4b434f4c4255, 295),
  (0x535245424d554e5f51415949535f4e414d4f54544f5f4b434f4c4255, 296),
  (0x4e4f49534e455458455f414e414b5f4c4c414d535f4b434f4c4255, 297),
  (0x415f4445444e455458455f5348504152474f544349505f444e415f534c4f424d59535f4b434f4c4255, 298),
  (0x544e454d454c505055535f4c494d41545f4b434f4c4255, 299),
  (0x4f48434e41575f4b434f4c4255, 300),
  (0x4e41494d5341524f48435f4b434f4c4255, 301),
  (0x475f4e4f49534e455458455f5348504152474f4544495f44454946494e555f4b4a435f4b434f4c4255, 302),
  (0x5552554b415f53455649445f4b434f4c4255, 303),
  (0x5450495243535f4c4c414d535f4e415449484b5f4b434f4c4255, 304),
  (0x544e454d454c505055535f5553494c5f4b434f4c4255, 305),
  (0x474e495455504d4f435f59434147454c5f524f465f534c4f424d59535f4b434f4c4255, 306),
  (0x544e454d454c505055535f5455474e41545f4b434f4c4255, 307),
  (0x4944495a45595f4b434f4c4255, 308),
  (0x45444f435f44494c41564e495f4b434f4c4255, -1),
  (0x4c41525455454e5f41455f55, 0),
  (0x53554f554749424d415f41455f55, 1),
  (0x4854444957464c41485f41455f55, 2),
  (0x48544449574c4c55465f41455f55, 3),
  (0x574f5252414e5f41455f55, 4),
  (0x454449575f41455f55, 5),
  (0x454d414e5f524148435f45444f43494e555f55, 0),
  (0x454d414e5f524148435f4445444e455458455f55, 2),
  (0x5341494c415f454d414e5f524148435f55, 3),
  (0x454d414e5f59545245504f52505f54524f48535f55, 0),
  (0x454d414e5f59545245504f52505f474e4f4c5f55, 1),
  (0x454e4f4e5f54445f55, 0),
  (0x4c4143494e4f4e41435f54445f55, 1),
  (0x5441504d4f435f54445f55, 2),
  (0x454c435249435f54445f55, 3),
  (0x4c414e49465f54445f55, 4),
  (0x544e4f465f54445f55, 5),
  (0x4e4f4954434152465f54445f55, 6),
  (0x4c414954494e495f54445f55, 7),
  (0x444554414c4f53495f54445f55, 8),
  (0x4c414944454d5f54445f55, 9),
  (0x574f5252414e5f54445f55, 10),
  (0x4b414552424f4e5f54445f55, 11),
  (0x4c4c414d535f54445f55, 12),
  (0x4552415551535f54445f55, 13),
  (0x4255535f54445f55, 14),
  (0x52455055535f54445f55, 15),
  (0x4c414349545245565f54445f55, 16),
  (0x454449575f54445f55, 17),
  (0x474e494e494f4a5f4e4f4e5f544a5f55, 0),
  (0x474e49535541435f4e494f4a5f544a5f55, 1),
  (0x474e494e494f4a5f4c4155445f544a5f55, 2),
  (0x474e494e494f4a5f5446454c5f544a5f55, 3),
  (0x474e494e494f4a5f54484749525f544a5f55, 4),
  (0x544e45524150534e4152545f544a5f55, 5),
  (0x50554f52475f474e494e494f4a5f4f4e5f474a5f55, 0),
  (0x4e49415f474a5f55, 1),
  (0x4850414c415f474a5f55, 2),
  (0x46454c415f474a5f55, 3),
  (0x4845425f474a5f55, 4),
  (0x485445425f474a5f55, 5),
  (0x4c41445f474a5f55, 6),
  (0x485349525f4854414c41445f474a5f55, 7),
  (0x455f474a5f55, 8),
  (0x4845465f474a5f55, 9),
  (0x4854414b4d45535f4c414e49465f474a5f55, 10),
  (0x4641475f474a5f55, 11),
  (0x4c414d41475f474a5f55, 12),
  (0x4841485f474a5f55, 13),
  (0x4c414f475f4154554252414d5f4845545f474a5f55, 14),
  (0x4c414f475f4845485f4e4f5f415a4d41485f474a5f55, 14),
  (0x45485f474a5f55, 15),
  (0x4845485f474a5f55, 16),
  (0x4c414f475f4845485f474a5f55, 17),
  (0x485445485f474a5f55, 18),
  (0x46414b5f474a5f55, 19),
  (0x4850414b5f474a5f55, 20),
  (0x4845485f444554544f4e4b5f474a5f55, 21),
  (0x4d414c5f474a5f55, 22),
  (0x4844414d414c5f474a5f55, 23),
  (0x4d45454d5f474a5f55, 24),
  (0x4d494d5f474a5f55, 25),
  (0x4e4f4f4e5f474a5f55, 26),
  (0x4e554e5f474a5f55, 27),
  (0x45505f474a5f55, 28),
  (0x4641515f474a5f55, 29),
  (0x485041515f474a5f55, 30),
  (0x4845525f474a5f55, 31),
  (0x45505f44455352455645525f474a5f55, 32),
  (0x4441535f474a5f55, 33),
  (0x45484441535f474a5f55, 34),
  (0x4e4545535f474a5f55, 35),
  (0x4854414b4d45535f474a5f55, 36),
  (0x4e4948535f474a5f55, 37),
  (0x46414b5f48534157535f474a5f55, 38),
  (0x5741575f4341495259535f474a5f55, 39),
  (0x4841545f474a5f55, 40),
  (0x5741545f474a5f55, 41),
  (0x4154554252414d5f4845545f474a5f55, 42),
  (0x485445545f474a5f55, 43),
  (0x5741575f474a5f55, 44),
  (0x4845595f474a5f55, 45),
  (0x4545525241425f4845595f474a5f55, 46),
  (0x4c4941545f485449575f4845595f474a5f55, 47),
  (0x484455595f474a5f55, 48),
  (0x45485f484455595f474a5f55, 49),
  (0x4e49415a5f474a5f55, 50),
  (0x45465f474a5f55, 51),
  (0x485041484b5f474a5f55, 52),
  (0x4e4941485a5f474a5f55, 53),
  (0x4545525241425f4845595f494b53414853555255425f474a5f55, 54),
  (0x4845595f49535241465f474a5f55, 55),
  (0x41594e5f474a5f55, 56),
  (0x4845595f4159474e49484f525f474a5f55, 57),
  (0x4850454c415f4e4145414843494e414d5f474a5f55, 58),
  (0x4e4959415f4e4145414843494e414d5f474a5f55, 59),
  (0x485445425f4e4145414843494e414d5f474a5f55, 60),
  (0x4854454c41445f4e4145414843494e414d5f474a5f55, 61),
  (0x4844454d4148445f4e4145414843494e414d5f474a5f55, 62),
  (0x455649465f4e4145414843494e414d5f474a5f55, 63),
  (0x4c454d49475f4e4145414843494e414d5f474a5f55, 64),
  (0x485445485f4e4145414843494e414d5f474a5f55, 65),
  (0x444552444e55485f4e4145414843494e414d5f474a5f55, 66),
  (0x4850414b5f4e4145414843494e414d5f474a5f55, 67),
  (0x4844454d414c5f4e4145414843494e414d5f474a5f55, 68),
  (0x4d454d5f4e4145414843494e414d5f474a5f55, 69),
  (0x4e554e5f4e4145414843494e414d5f474a5f55, 70),
  (0x454e4f5f4e4145414843494e414d5f474a5f55, 71),
  (0x45505f4e4145414843494e414d5f474a5f55, 72),
  (0x48504f515f4e4145414843494e414d5f474a5f55, 73),
  (0x485345525f4e4145414843494e414d5f474a5f55, 74),
  (0x45484441535f4e4145414843494e414d5f474a5f55, 75),
  (0x484b454d41535f4e4145414843494e414d5f474a5f55, 76),
  (0x5741545f4e4145414843494e414d5f474a5f55, 77),
  (0x4e45545f4e4145414843494e414d5f474a5f55, 78),
  (0x485445545f4e4145414843494e414d5f474a5f55, 79),
  (0x4844454d4148545f4e4145414843494e414d5f474a5f55, 80),
  (0x59544e4557545f4e4145414843494e414d5f474a5f55, 81),
  (0x5741575f4e4145414843494e414d5f474a5f55, 82),
  (0x48444f595f4e4145414843494e414d5f474a5f55, 83),
  (0x4e4959415a5f4e4145414843494e414d5f474a5f55, 84),
  (0x5741575f54484749415254535f474a5f55, 85),
  (0x4845465f4e4143495246415f474a5f55, 86),
  (0x4e4f4f4e5f4e4143495246415f474a5f55, 87),
  (0x4641515f4e4143495246415f474a5f55, 88),
  (0x4148425f4d414c4159414c414d5f474a5f55, 89),
  (0x414a5f4d414c4159414c414d5f474a5f55, 90),
  (0x414c4c5f4d414c4159414c414d5f474a5f55, 91),
  (0x414c4c4c5f4d414c4159414c414d5f474a5f55, 92),
  (0x41474e5f4d414c4159414c414d5f474a5f55, 93),
  (0x414e4e5f4d414c4159414c414d5f474a5f55, 94),
  (0x414e4e4e5f4d414c4159414c414d5f474a5f55, 95),
  (0x41594e5f4d414c4159414c414d5f474a5f55, 96),
  (0x41525f4d414c4159414c414d5f474a5f55, 97),
  (0x4153535f4d414c4159414c414d5f474a5f55, 98),
  (0x4154545f4d414c4159414c414d5f474a5f55, 99),
  (0x41595f414e4e494b5f4159474e49484f525f4946494e41485f474a5f55, 100),
  (0x41505f4159474e49484f525f4946494e41485f474a5f55, 101),
  (0x524548544f5f4243475f55, 0),
  (0x4c4f52544e4f435f4243475f55, 1),
  (0x52435f4243475f55, 2),
  (0x444e455458455f4243475f55, 3),
  (0x4c5f4243475f55, 4),
  (0x464c5f4243475f55, 5),
  (0x564c5f4243475f55, 6),
  (0x54564c5f4243475f55, 7),
  (0x545f4243475f55, 8),
  (0x565f4243475f55, 9),
  (0x4b52414d5f474e49434150535f4243475f55, 10),
  (0x444e45504552505f4243475f55, 11),
  (0x524f54414349444e495f4c414e4f494745525f4243475f55, 12),
  (0x455341425f455f4243475f55, 13),
  (0x5a41475f455341425f455f4243475f55, 14),
  (0x5245494649444f4d5f455f4243475f55, 15),
  (0x4a575a5f52455446415f45554c475f4243475f55, 16),
  (0x4a575a5f4243475f55, 17),
  (0x524548544f5f42575f55, 0),
  (0x52455454454c415f42575f55, 1),
  (0x54414d524f465f42575f55, 2),
  (0x414e414b4154414b5f42575f55, 3),
  (0x52455454454c44494d5f42575f55, 4),
  (0x4d554e44494d5f42575f55, 5),
  (0x434952454d554e5f42575f55, 6),
  (0x54454c4d554e444e455458455f42575f55, 7),
  (0x52435f42575f55, 8),
  (0x444e455458455f42575f55, 9),
  (0x464c5f42575f55, 10),
  (0x54454c4d554e44494d5f42575f55, 11),
  (0x454e494c57454e5f42575f55, 12),
  (0x524f54414349444e495f4c414e4f494745525f42575f55, 13),
  (0x52455454454c5f5745524245485f42575f55, 14),
  (0x45544f55515f454c474e49535f42575f55, 15),
  (0x45544f55515f454c42554f445f42575f55, 16),
  (0x455341425f455f42575f55, 17),
  (0x5a41475f455341425f455f42575f55, 18),
  (0x5245494649444f4d5f455f42575f55, 19),
  (0x4a575a5f52455446415f45554c475f42575f55, 20),
  (0x4a575a5f42575f55, 21),
  (0x4543415053474553575f42575f55, 22),
  (0x524548544f5f42535f55, 0),
  (0x4d524554415f42535f55, 1),
  (0x45534f4c435f42535f55, 2),
  (0x54414d524f465f42535f55, 3),
  (0x5245574f4c5f42535f55, 4),
  (0x434952454d554e5f42535f55, 5),
  (0x52455454454c4f5f42535f55, 6),
  (0x5045535f42535f55, 7),
  (0x50535f42535f55, 8),
  (0x4d524554535f42535f55, 9),
  (0x52455050555f42535f55, 10),
  (0x52435f42535f55, 11),
  (0x444e455458455f42535f55, 12),
  (0x464c5f42535f55, 13),
  (0x45554e49544e4f43535f42535f55, 14),
  (0x4e574f4e4b4e555f424c5f55, 0),
  (0x53554f554749424d415f424c5f55, 1),
  (0x43495445424148504c415f424c5f55, 2),
  (0x48544f425f4b414552425f424c5f55, 3),
  (0x52455446415f4b414552425f424c5f55, 4),
  (0x45524f4645425f4b414552425f424c5f55, 5),
  (0x4b414552425f59524f5441444e414d5f424c5f55, 6),
  (0x4b414552425f544e45474e49544e4f435f424c5f55, 7),
  (0x4e4f4954415554434e55505f45534f4c435f424c5f55, 8),
  (0x4b52414d5f474e494e49424d4f435f424c5f55, 9),
  (0x4e52555445525f45474149525241435f424c5f55, 10),
  (0x4e4f4954414d414c4358455f424c5f55, 11),
  (0x45554c475f424c5f55, 12),
  (0x4e45485059485f424c5f55, 13),
  (0x434948504152474f4544495f424c5f55, 14),
  (0x454c424152415045534e495f424c5f55, 15),
  (0x454c424152455045534e495f424c5f55, 15),
  (0x434952454d554e5f5849464e495f424c5f55, 16),
  (0x444545465f454e494c5f424c5f55, 17),
  (0x524554524154534e4f4e5f424c5f55, 18),
  (0x434952454d554e5f424c5f55, 19),
  (0x4e4f4954415554434e55505f4e45504f5f424c5f55, 20),
  (0x434952454d554e5f58494654534f505f424c5f55, 21),
  (0x434952454d554e5f5849464552505f424c5f55, 22),
  (0x4e4f495441544f55515f424c5f55, 23),
  (0x545845544e4f435f58454c504d4f435f424c5f55, 24),
  (0x455441474f525255535f424c5f55, 25),
  (0x45434150535f424c5f55, 26),
  (0x534c4f424d59535f4b414552425f424c5f55, 27),
  (0x4543415053575a5f424c5f55, 28),
  (0x454e494c5f5458454e5f424c5f55, 29),
  (0x52454e494f4a5f44524f575f424c5f55, 30),
  (0x32485f424c5f55, 31),
  (0x33485f424c5f55, 32),
  (0x4c4a5f424c5f55, 33),
  (0x544a5f424c5f55, 34),
  (0x564a5f424c5f55, 35),
  (0x5349534548544e455241505f45534f4c435f424c5f55, 36),
  (0x524554524154535f4553454e4150414a5f4c414e4f495449444e4f435f424c5f55, 37),
  (0x52455454454c5f5745524245485f424c5f55, 38),
  (0x524f54414349444e495f4c414e4f494745525f424c5f55, 39),
  (0x455341425f455f424c5f55, 40),
  (0x5245494649444f4d5f455f424c5f55, 41),
  (0x4a575a5f424c5f55, 42),
  (0x454e4f4e5f544e5f55, 0),
  (0x4c414d494345445f544e5f55, 1),
  (0x54494749445f544e5f55, 2),
  (0x434952454d554e5f544e5f55, 3),
  (0x454c424143494c5050415f544f4e5f5453485f55, 0),
  (0x4f4d414a5f474e494441454c5f5453485f55, 1),
  (0x4f4d414a5f4c45574f565f5453485f55, 2),
  (0x4f4d414a5f474e494c494152545f5453485f55, 3),
  (0x454c42414c4c59535f564c5f5453485f55, 4),
  (0x454c42414c4c59535f54564c5f5453485f55, 5),
  (0x414e5f43504e495f55, 0),
  (0x4d4f54544f425f43504e495f55, 1),
  (0x5446454c5f444e415f4d4f54544f425f43504e495f55, 2),
  (0x54484749525f444e415f4d4f54544f425f43504e495f55, 3),
  (0x5446454c5f43504e495f55, 4),
  (0x54484749525f444e415f5446454c5f43504e495f55, 5),
  (0x4b43555254535245564f5f43504e495f55, 6),
  (0x54484749525f43504e495f55, 7),
  (0x504f545f43504e495f55, 8),
  (0x4d4f54544f425f444e415f504f545f43504e495f55, 9),
  (0x54484749525f444e415f4d4f54544f425f444e415f504f545f43504e495f55, 10),
  (0x5446454c5f444e415f504f545f43504e495f55, 11),
  (0x54484749525f444e415f5446454c5f444e415f504f545f43504e495f55, 12),
  (0x54484749525f444e415f504f545f43504e495f55, 13),
  (0x5446454c5f524544524f5f4c41555349565f43504e495f55, 14),
  (0x5446454c5f444e415f4d4f54544f425f444e415f504f545f43504e495f55, 15),
  (0x524548544f5f43534e495f55, 0),
  (0x41484152474156415f43534e495f55, 1),
  (0x55444e49425f43534e495f55, 2),
  (0x5245424d554e5f474e494e494f4a5f494d484152425f43534e495f55, 3),
  (0x4b52414d5f4e4f4954414c4c49544e41435f43534e495f55, 4),
  (0x544e414e4f534e4f435f43534e495f55, 5),
  (0x444145445f544e414e4f534e4f435f43534e495f55, 6),
  (0x4c414e49465f544e414e4f534e4f435f43534e495f55, 7),
  (0x52455454454c5f444145485f544e414e4f534e4f435f43534e495f55, 8),
  (0x444558494654534f505f4c414954494e495f544e414e4f534e4f435f43534e495f55, 9),
  (0x52454c4c494b5f544e414e4f534e4f435f43534e495f55, 10),
  (0x4c414944454d5f544e414e4f534e4f435f43534e495f55, 11),
  (0x5245444c4f484543414c505f544e414e4f534e4f435f43534e495f55, 12),
  (0x41485045525f474e494445434552505f544e414e4f534e4f435f43534e495f55, 13),
  (0x44455849464552505f544e414e4f534e4f435f43534e495f55, 14),
  (0x44454e494f4a4255535f544e414e4f534e4f435f43534e495f55, 15),
  (0x41485045525f474e49444545434355535f544e414e4f534e4f435f43534e495f55, 16),
  (0x52454b434154535f485449575f544e414e4f534e4f435f43534e495f55, 17),
  (0x4b52414d5f4e4f4954414e494d45475f43534e495f55, 18),
  (0x52454b434154535f454c42495349564e495f43534e495f55, 19),
  (0x52454e494f4a5f43534e495f55, 20),
  (0x52455454454c5f474e49594649444f4d5f43534e495f55, 21),
  (0x52454e494f4a5f4e4f4e5f43534e495f55, 22),
  (0x41544b554e5f43534e495f55, 23),
  (0x5245424d554e5f43534e495f55, 24),
  (0x52454e494f4a5f5245424d554e5f43534e495f55, 25),
  (0x52454c4c494b5f455255505f43534e495f55, 26),
  (0x524554464948535f52455453494745525f43534e495f55, 27),
  (0x5245494649444f4d5f454c42414c4c59535f43534e495f55, 28),
  (0x52455454454c5f454e4f545f43534e495f55, 29),
  (0x4b52414d5f454e4f545f43534e495f55, 30),
  (0x414d415249565f43534e495f55, 31),
  (0x414752415349565f43534e495f55, 32),
  (0x4c45574f565f43534e495f55, 33),
  (0x544e45444e455045445f4c45574f565f43534e495f55, 34),
  (0x544e45444e455045444e495f4c45574f565f43534e495f55, 35),
  (0x44455441544f525f4f565f55, 0),
  (0x44455441544f525f44454d524f46534e4152545f4f565f55, 1),
  (0x544847495250555f44454d524f46534e4152545f4f565f55, 2),
  (0x544847495250555f4f565f55, 3)]

/-- UnicodeData/UCDTypeDictionaries.py:1-913 the lines of the file. -/
def UCDTypeDictionaries : List Nat :=
 [0x2222222f,
  0x5543445479706544696374696f6e61726965732e70792c206261736564206f6e2070707563642e7478742066726f6d20494355,
  0x0,
  0x47656e657261746564206279205543445265616465722e7079206f6e204175677573742032362c20323032312061742031313a32373a313320414d20485354,
  0x222222,
  0x0,
  0x66726f6d202e75636861725f6820696d706f7274202a,
  0x66726f6d202e757363726970745f6820696d706f7274202a,
  0x0,
  0x62696469436c6173734e616d6573203d207b,
  0x20202020555f52494748545f544f5f4c4546545f4152414249433a2022414c222c,
  0x20202020555f4152414249435f4e554d4245523a2022414e222c,
  0x20202020555f424c4f434b5f534550415241544f523a202242222c,
  0x20202020555f424f554e444152595f4e45555452414c3a2022424e222c,
  0x20202020555f434f4d4d4f4e5f4e554d4245525f534550415241544f523a20224353222c,
  0x20202020555f4555524f5045414e5f4e554d4245523a2022454e222c,
  0x20202020555f4555524f5045414e5f4e554d4245525f534550415241544f523a20224553222c,
  0x20202020555f4555524f5045414e5f4e554d4245525f5445524d494e41544f523a20224554222c,
  0x20202020555f46495253545f5354524f4e475f49534f4c4154453a2022465349222c,
  0x20202020555f4c4546545f544f5f52494748543a20224c222c,
  0x20202020555f4c4546545f544f5f52494748545f454d42454444494e473a20224c5245222c,
  0x20202020555f4c4546545f544f5f52494748545f49534f4c4154453a20224c5249222c,
  0x20202020555f4c4546545f544f5f52494748545f4f564552524944453a20224c524f222c,
  0x20202020555f4449525f4e4f4e5f53504143494e475f4d41524b3a20224e534d222c,
  0x20202020555f4f544845525f4e45555452414c3a20224f4e222c,
  0x20202020555f504f505f444952454354494f4e414c5f464f524d41543a2022504446222c,
  0x20202020555f504f505f444952454354494f4e414c5f49534f4c4154453a2022504449222c,
  0x20202020555f52494748545f544f5f4c4546543a202252222c,
  0x20202020555f52494748545f544f5f4c4546545f454d42454444494e473a2022524c45222c,
  0x20202020555f52494748545f544f5f4c4546545f49534f4c4154453a2022524c49222c,
  0x20202020555f52494748545f544f5f4c4546545f4f564552524944453a2022524c4f222c,
  0x20202020555f5345474d454e545f534550415241544f523a202253222c,
  0x20202020555f57484954455f53504143455f4e45555452414c3a2022575322,
  0x7d,
  0x0,
  0x626c6f636b4e616d6573203d207b,
  0x2020202055424c4f434b5f42415349435f4c4154494e3a20224153434949222c,
  0x2020202055424c4f434b5f41444c414d3a202241646c616d222c,
  0x2020202055424c4f434b5f41454745414e5f4e554d424552533a202241656765616e204e756d62657273222c,
  0x2020202055424c4f434b5f41484f4d3a202241686f6d222c,
  0x2020202055424c4f434b5f414c4348454d4943414c5f53594d424f4c533a2022416c6368656d6963616c222c,
  0x2020202055424c4f434b5f414c50484142455449435f50524553454e544154494f4e5f464f524d533a2022416c7068616265746963205046222c,
  0x2020202055424c4f434b5f414e41544f4c49414e5f484945524f474c595048533a2022416e61746f6c69616e20486965726f676c79706873222c,
  0x2020202055424c4f434b5f414e4349454e545f475245454b5f4d55534943414c5f4e4f544154494f4e3a2022416e6369656e7420477265656b204d75736963222c,
  0x2020202055424c4f434b5f414e4349454e545f475245454b5f4e554d424552533a2022416e6369656e7420477265656b204e756d62657273222c,
  0x2020202055424c4f434b5f414e4349454e545f53594d424f4c533a2022416e6369656e742053796d626f6c73222c,
  0x2020202055424c4f434b5f4152414249433a2022417261626963222c,
  0x2020202055424c4f434b5f4152414249435f455854454e4445445f413a2022417261626963204578742041222c,
  0x2020202055424c4f434b5f4152414249435f4d415448454d41544943414c5f414c50484142455449435f53594d424f4c533a2022417261626963204d617468222c,
  0x2020202055424c4f434b5f4152414249435f50524553454e544154494f4e5f464f524d535f413a20224172616269632050462041222c,
  0x2020202055424c4f434b5f4152414249435f50524553454e544154494f4e5f464f524d535f423a20224172616269632050462042222c,
  0x2020202055424c4f434b5f4152414249435f535550504c454d454e543a202241726162696320537570222c,
  0x2020202055424c4f434b5f41524d454e49414e3a202241726d656e69616e222c,
  0x2020202055424c4f434b5f4152524f57533a20224172726f7773222c,
  0x2020202055424c4f434b5f4156455354414e3a20224176657374616e222c,
  0x2020202055424c4f434b5f42414c494e4553453a202242616c696e657365222c,
  0x2020202055424c4f434b5f42414d554d3a202242616d756d222c,
  0x2020202055424c4f434b5f42414d554d5f535550504c454d454e543a202242616d756d20537570222c,
  0x2020202055424c4f434b5f42415353415f5641483a2022426173736120566168222c,
  0x2020202055424c4f434b5f424154414b3a2022426174616b222c,
  0x2020202055424c4f434b5f42454e47414c493a202242656e67616c69222c,
  0x2020202055424c4f434b5f424841494b53554b493a2022426861696b73756b69222c,
  0x2020202055424c4f434b5f424c4f434b5f454c454d454e54533a2022426c6f636b20456c656d656e7473222c,
  0x2020202055424c4f434b5f424f504f4d4f464f3a2022426f706f6d6f666f222c,
  0x2020202055424c4f434b5f424f504f4d4f464f5f455854454e4445443a2022426f706f6d6f666f20457874222c,
  0x2020202055424c4f434b5f424f585f44524157494e473a2022426f782044726177696e67222c,
  0x2020202055424c4f434b5f425241484d493a2022427261686d69222c,
  0x2020202055424c4f434b5f425241494c4c455f5041545445524e533a2022427261696c6c65222c,
  0x2020202055424c4f434b5f425547494e4553453a2022427567696e657365222c,
  0x2020202055424c4f434b5f42554849443a20224275686964222c,
  0x2020202055424c4f434b5f42595a414e54494e455f4d55534943414c5f53594d424f4c533a202242797a616e74696e65204d75736963222c,
  0x2020202055424c4f434b5f434a4b5f554e49464945445f4944454f4752415048533a2022434a4b222c,
  0x2020202055424c4f434b5f434a4b5f434f4d5041544942494c4954593a2022434a4b20436f6d706174222c,
  0x2020202055424c4f434b5f434a4b5f434f4d5041544942494c4954595f464f524d533a2022434a4b20436f6d70617420466f726d73222c,
  0x2020202055424c4f434b5f434a4b5f434f4d5041544942494c4954595f4944454f4752415048533a2022434a4b20436f6d706174204964656f677261706873222c,
  0x2020202055424c4f434b5f434a4b5f434f4d5041544942494c4954595f4944454f4752415048535f535550504c454d454e543a2022434a4b20436f6d706174204964656f67726170687320537570222c,
  0x2020202055424c4f434b5f434a4b5f554e49464945445f4944454f4752415048535f455854454e53494f4e5f413a2022434a4b204578742041222c,
  0x2020202055424c4f434b5f434a4b5f554e49464945445f4944454f4752415048535f455854454e53494f4e5f423a2022434a4b204578742042222c,
  0x2020202055424c4f434b5f434a4b5f554e49464945445f4944454f4752415048535f455854454e53494f4e5f433a2022434a4b204578742043222c,
  0x2020202055424c4f434b5f434a4b5f554e49464945445f4944454f4752415048535f455854454e53494f4e5f443a2022434a4b204578742044222c,
  0x2020202055424c4f434b5f434a4b5f554e49464945445f4944454f4752415048535f455854454e53494f4e5f453a2022434a4b204578742045222c,
  0x2020202055424c4f434b5f434a4b5f554e49464945445f4944454f4752415048535f455854454e53494f4e5f463a2022434a4b204578742046222c,
  0x2020202055424c4f434b5f434a4b5f554e49464945445f4944454f4752415048535f455854454e53494f4e5f473a2022434a4b204578742047222c,
  0x2020202055424c4f434b5f434a4b5f5241444943414c535f535550504c454d454e543a2022434a4b205261646963616c7320537570222c,
  0x2020202055424c4f434b5f434a4b5f5354524f4b45533a2022434a4b205374726f6b6573222c,
  0x2020202055424c4f434b5f434a4b5f53594d424f4c535f414e445f50554e4354554154494f4e3a2022434a4b2053796d626f6c73222c,
  0x2020202055424c4f434b5f43415249414e3a202243617269616e222c,
  0x2020202055424c4f434b5f43415543415349414e5f414c42414e49414e3a202243617563617369616e20416c62616e69616e222c,
  0x2020202055424c4f434b5f4348414b4d413a20224368616b6d61222c,
  0x2020202055424c4f434b5f4348414d3a20224368616d222c,
  0x2020202055424c4f434b5f434845524f4b45453a2022436865726f6b6565222c,
  0x2020202055424c4f434b5f434845524f4b45455f535550504c454d454e543a2022436865726f6b656520537570222c,
  0x2020202055424c4f434b5f43484553535f53594d424f4c533a202243686573732053796d626f6c73222c,
  0x2020202055424c4f434b5f43484f5241534d49414e3a202243686f7261736d69616e222c,
  0x2020202055424c4f434b5f48414e47554c5f434f4d5041544942494c4954595f4a414d4f3a2022436f6d706174204a616d6f222c,
  0x2020202055424c4f434b5f434f4e54524f4c5f50494354555245533a2022436f6e74726f6c205069637475726573222c,
  0x2020202055424c4f434b5f434f505449433a2022436f70746963222c,
  0x2020202055424c4f434b5f434f505449435f45504143545f4e554d424552533a2022436f70746963204570616374204e756d62657273222c,
  0x2020202055424c4f434b5f434f554e54494e475f524f445f4e554d4552414c533a2022436f756e74696e6720526f64222c,
  0x2020202055424c4f434b5f43554e4549464f524d3a202243756e6569666f726d222c,
  0x2020202055424c4f434b5f43554e4549464f524d5f4e554d424552535f414e445f50554e4354554154494f4e3a202243756e6569666f726d204e756d62657273222c,
  0x2020202055424c4f434b5f43555252454e43595f53594d424f4c533a202243757272656e63792053796d626f6c73222c,
  0x2020202055424c4f434b5f43595052494f545f53594c4c41424152593a202243797072696f742053796c6c6162617279222c,
  0x2020202055424c4f434b5f435952494c4c49433a2022437972696c6c6963222c,
  0x2020202055424c4f434b5f435952494c4c49435f455854454e4445445f413a2022437972696c6c6963204578742041222c,
  0x2020202055424c4f434b5f435952494c4c49435f455854454e4445445f423a2022437972696c6c6963204578742042222c,
  0x2020202055424c4f434b5f435952494c4c49435f455854454e4445445f433a2022437972696c6c6963204578742043222c,
  0x2020202055424c4f434b5f435952494c4c49435f535550504c454d454e543a2022437972696c6c696320537570222c,
  0x2020202055424c4f434b5f444553455245543a202244657365726574222c,
  0x2020202055424c4f434b5f444556414e41474152493a2022446576616e6167617269222c,
  0x2020202055424c4f434b5f444556414e41474152495f455854454e4445443a2022446576616e616761726920457874222c,
  0x2020202055424c4f434b5f434f4d42494e494e475f444941435249544943414c5f4d41524b533a2022446961637269746963616c73222c,
  0x2020202055424c4f434b5f434f4d42494e494e475f444941435249544943414c5f4d41524b535f455854454e4445443a2022446961637269746963616c7320457874222c,
  0x2020202055424c4f434b5f434f4d42494e494e475f4d41524b535f464f525f53594d424f4c533a2022446961637269746963616c7320466f722053796d626f6c73222c,
  0x2020202055424c4f434b5f434f4d42494e494e475f444941435249544943414c5f4d41524b535f535550504c454d454e543a2022446961637269746963616c7320537570222c,
  0x2020202055424c4f434b5f44494e47424154533a202244696e6762617473222c,
  0x2020202055424c4f434b5f44495645535f414b5552553a2022446976657320416b757275222c,
  0x2020202055424c4f434b5f444f4752413a2022446f677261222c,
  0x2020202055424c4f434b5f444f4d494e4f5f54494c45533a2022446f6d696e6f222c,
  0x2020202055424c4f434b5f4455504c4f59414e3a20224475706c6f79616e222c,
  0x2020202055424c4f434b5f4541524c595f44594e41535449435f43554e4549464f524d3a20224561726c792044796e61737469632043756e6569666f726d222c,
  0x2020202055424c4f434b5f454759505449414e5f484945524f474c5950485f464f524d41545f434f4e54524f4c533a2022456779707469616e20486965726f676c79706820466f726d617420436f6e74726f6c73222c,
  0x2020202055424c4f434b5f454759505449414e5f484945524f474c595048533a2022456779707469616e20486965726f676c79706873222c,
  0x2020202055424c4f434b5f454c424153414e3a2022456c626173616e222c,
  0x2020202055424c4f434b5f454c594d4149433a2022456c796d616963222c,
  0x2020202055424c4f434b5f454d4f5449434f4e533a2022456d6f7469636f6e73222c,
  0x2020202055424c4f434b5f454e434c4f5345445f414c5048414e554d45524943533a2022456e636c6f73656420416c7068616e756d222c,
  0x2020202055424c4f434b5f454e434c4f5345445f414c5048414e554d455249435f535550504c454d454e543a2022456e636c6f73656420416c7068616e756d20537570222c,
  0x2020202055424c4f434b5f454e434c4f5345445f434a4b5f4c4554544552535f414e445f4d4f4e5448533a2022456e636c6f73656420434a4b222c,
  0x2020202055424c4f434b5f454e434c4f5345445f4944454f475241504849435f535550504c454d454e543a2022456e636c6f736564204964656f6772617068696320537570222c,
  0x2020202055424c4f434b5f455448494f5049433a2022457468696f706963222c,
  0x2020202055424c4f434b5f455448494f5049435f455854454e4445443a2022457468696f70696320457874222c,
  0x2020202055424c4f434b5f455448494f5049435f455854454e4445445f413a2022457468696f706963204578742041222c,
  0x2020202055424c4f434b5f455448494f5049435f535550504c454d454e543a2022457468696f70696320537570222c,
  0x2020202055424c4f434b5f47454f4d45545249435f5348415045533a202247656f6d657472696320536861706573222c,
  0x2020202055424c4f434b5f47454f4d45545249435f5348415045535f455854454e4445443a202247656f6d65747269632053686170657320457874222c,
  0x2020202055424c4f434b5f47454f524749414e3a202247656f726769616e222c,
  0x2020202055424c4f434b5f47454f524749414e5f455854454e4445443a202247656f726769616e20457874222c,
  0x2020202055424c4f434b5f47454f524749414e5f535550504c454d454e543a202247656f726769616e20537570222c,
  0x2020202055424c4f434b5f474c41474f4c495449433a2022476c61676f6c69746963222c,
  0x2020202055424c4f434b5f474c41474f4c495449435f535550504c454d454e543a2022476c61676f6c6974696320537570222c,
  0x2020202055424c4f434b5f474f544849433a2022476f74686963222c,
  0x2020202055424c4f434b5f4752414e5448413a20224772616e746861222c,
  0x2020202055424c4f434b5f475245454b3a2022477265656b222c,
  0x2020202055424c4f434b5f475245454b5f455854454e4445443a2022477265656b20457874222c,
  0x2020202055424c4f434b5f47554a41524154493a202247756a6172617469222c,
  0x2020202055424c4f434b5f47554e4a414c415f474f4e44493a202247756e6a616c6120476f6e6469222c,
  0x2020202055424c4f434b5f4755524d554b48493a20224775726d756b6869222c,
  0x2020202055424c4f434b5f48414c4657494454485f414e445f46554c4c57494454485f464f524d533a202248616c6620416e642046756c6c20466f726d73222c,
  0x2020202055424c4f434b5f434f4d42494e494e475f48414c465f4d41524b533a202248616c66204d61726b73222c,
  0x2020202055424c4f434b5f48414e47554c5f53594c4c41424c45533a202248616e67756c222c,
  0x2020202055424c4f434b5f48414e4946495f524f48494e4759413a202248616e69666920526f68696e677961222c,
  0x2020202055424c4f434b5f48414e554e4f4f3a202248616e756e6f6f222c,
  0x2020202055424c4f434b5f48415452414e3a202248617472616e222c,
  0x2020202055424c4f434b5f4845425245573a2022486562726577222c,
  0x2020202055424c4f434b5f484947485f505249564154455f5553455f535552524f47415445533a20224869676820505520537572726f6761746573222c,
  0x2020202055424c4f434b5f484947485f535552524f47415445533a20224869676820537572726f6761746573222c,
  0x2020202055424c4f434b5f4849524147414e413a20224869726167616e61222c,
  0x2020202055424c4f434b5f4944454f475241504849435f4445534352495054494f4e5f434841524143544552533a2022494443222c,
  0x2020202055424c4f434b5f4950415f455854454e53494f4e533a202249504120457874222c,
  0x2020202055424c4f434b5f4944454f475241504849435f53594d424f4c535f414e445f50554e4354554154494f4e3a20224964656f677261706869632053796d626f6c73222c,
  0x2020202055424c4f434b5f494d50455249414c5f4152414d4149433a2022496d70657269616c204172616d616963222c,
  0x2020202055424c4f434b5f434f4d4d4f4e5f494e4449435f4e554d4245525f464f524d533a2022496e646963204e756d62657220466f726d73222c,
  0x2020202055424c4f434b5f494e4449435f53495941515f4e554d424552533a2022496e646963205369796171204e756d62657273222c,
  0x2020202055424c4f434b5f494e534352495054494f4e414c5f5041484c4156493a2022496e736372697074696f6e616c205061686c617669222c,
  0x2020202055424c4f434b5f494e534352495054494f4e414c5f504152544849414e3a2022496e736372697074696f6e616c20506172746869616e222c,
  0x2020202055424c4f434b5f48414e47554c5f4a414d4f3a20224a616d6f222c,
  0x2020202055424c4f434b5f48414e47554c5f4a414d4f5f455854454e4445445f413a20224a616d6f204578742041222c,
  0x2020202055424c4f434b5f48414e47554c5f4a414d4f5f455854454e4445445f423a20224a616d6f204578742042222c,
  0x2020202055424c4f434b5f4a4156414e4553453a20224a6176616e657365222c,
  0x2020202055424c4f434b5f4b41495448493a20224b6169746869222c,
  0x2020202055424c4f434b5f4b414e415f455854454e4445445f413a20224b616e61204578742041222c,
  0x2020202055424c4f434b5f4b414e415f535550504c454d454e543a20224b616e6120537570222c,
  0x2020202055424c4f434b5f4b414e42554e3a20224b616e62756e222c,
  0x2020202055424c4f434b5f4b414e4758495f5241444943414c533a20224b616e677869222c,
  0x2020202055424c4f434b5f4b414e4e4144413a20224b616e6e616461222c,
  0x2020202055424c4f434b5f4b4154414b414e413a20224b6174616b616e61222c,
  0x2020202055424c4f434b5f4b4154414b414e415f50484f4e455449435f455854454e53494f4e533a20224b6174616b616e6120457874222c,
  0x2020202055424c4f434b5f4b415941485f4c493a20224b61796168204c69222c,
  0x2020202055424c4f434b5f4b4841524f53485448493a20224b6861726f7368746869222c,
  0x2020202055424c4f434b5f4b484954414e5f534d414c4c5f5343524950543a20224b686974616e20536d616c6c20536372697074222c,
  0x2020202055424c4f434b5f4b484d45523a20224b686d6572222c,
  0x2020202055424c4f434b5f4b484d45525f53594d424f4c533a20224b686d65722053796d626f6c73222c,
  0x2020202055424c4f434b5f4b484f4a4b493a20224b686f6a6b69222c,
  0x2020202055424c4f434b5f4b48554441574144493a20224b6875646177616469222c,
  0x2020202055424c4f434b5f4c414f3a20224c616f222c,
  0x2020202055424c4f434b5f4c4154494e5f315f535550504c454d454e543a20224c6174696e203120537570222c,
  0x2020202055424c4f434b5f4c4154494e5f455854454e4445445f413a20224c6174696e204578742041222c,
  0x2020202055424c4f434b5f4c4154494e5f455854454e4445445f4144444954494f4e414c3a20224c6174696e20457874204164646974696f6e616c222c,
  0x2020202055424c4f434b5f4c4154494e5f455854454e4445445f423a20224c6174696e204578742042222c,
  0x2020202055424c4f434b5f4c4154494e5f455854454e4445445f433a20224c6174696e204578742043222c,
  0x2020202055424c4f434b5f4c4154494e5f455854454e4445445f443a20224c6174696e204578742044222c,
  0x2020202055424c4f434b5f4c4154494e5f455854454e4445445f453a20224c6174696e204578742045222c,
  0x2020202055424c4f434b5f4c45504348413a20224c6570636861222c,
  0x2020202055424c4f434b5f4c45545445524c494b455f53594d424f4c533a20224c65747465726c696b652053796d626f6c73222c,
  0x2020202055424c4f434b5f4c494d42553a20224c696d6275222c,
  0x2020202055424c4f434b5f4c494e4541525f413a20224c696e6561722041222c,
  0x2020202055424c4f434b5f4c494e4541525f425f4944454f4752414d533a20224c696e6561722042204964656f6772616d73222c,
  0x2020202055424c4f434b5f4c494e4541525f425f53594c4c41424152593a20224c696e65617220422053796c6c6162617279222c,
  0x2020202055424c4f434b5f4c4953553a20224c697375222c,
  0x2020202055424c4f434b5f4c4953555f535550504c454d454e543a20224c69737520537570222c,
  0x2020202055424c4f434b5f4c4f575f535552524f47415445533a20224c6f7720537572726f6761746573222c,
  0x2020202055424c4f434b5f4c594349414e3a20224c796369616e222c,
  0x2020202055424c4f434b5f4c594449414e3a20224c796469616e222c,
  0x2020202055424c4f434b5f4d4148414a414e493a20224d6168616a616e69222c,
  0x2020202055424c4f434b5f4d41484a4f4e475f54494c45533a20224d61686a6f6e67222c,
  0x2020202055424c4f434b5f4d414b415341523a20224d616b61736172222c,
  0x2020202055424c4f434b5f4d414c4159414c414d3a20224d616c6179616c616d222c,
  0x2020202055424c4f434b5f4d414e444149433a20224d616e64616963222c,
  0x2020202055424c4f434b5f4d414e4943484145414e3a20224d616e6963686165616e222c,
  0x2020202055424c4f434b5f4d41524348454e3a20224d61726368656e222c,
  0x2020202055424c4f434b5f4d41534152414d5f474f4e44493a20224d61736172616d20476f6e6469222c,
  0x2020202055424c4f434b5f4d415448454d41544943414c5f414c5048414e554d455249435f53594d424f4c533a20224d61746820416c7068616e756d222c,
  0x2020202055424c4f434b5f4d415448454d41544943414c5f4f50455241544f52533a20224d617468204f70657261746f7273222c,
  0x2020202055424c4f434b5f4d4159414e5f4e554d4552414c533a20224d6179616e204e756d6572616c73222c,
  0x2020202055424c4f434b5f4d4544454641494452494e3a20224d6564656661696472696e222c,
  0x2020202055424c4f434b5f4d45455445495f4d4159454b3a20224d6565746569204d6179656b222c,
  0x2020202055424c4f434b5f4d45455445495f4d4159454b5f455854454e53494f4e533a20224d6565746569204d6179656b20457874222c,
  0x2020202055424c4f434b5f4d454e44455f4b494b414b55493a20224d656e6465204b696b616b7569222c,
  0x2020202055424c4f434b5f4d45524f495449435f435552534956453a20224d65726f697469632043757273697665222c,
  0x2020202055424c4f434b5f4d45524f495449435f484945524f474c595048533a20224d65726f6974696320486965726f676c79706873222c,
  0x2020202055424c4f434b5f4d49414f3a20224d69616f222c,
  0x2020202055424c4f434b5f4d495343454c4c414e454f55535f53594d424f4c535f414e445f4152524f57533a20224d697363204172726f7773222c,
  0x2020202055424c4f434b5f4d495343454c4c414e454f55535f4d415448454d41544943414c5f53594d424f4c535f413a20224d697363204d6174682053796d626f6c732041222c,
  0x2020202055424c4f434b5f4d495343454c4c414e454f55535f4d415448454d41544943414c5f53594d424f4c535f423a20224d697363204d6174682053796d626f6c732042222c,
  0x2020202055424c4f434b5f4d495343454c4c414e454f55535f53594d424f4c535f414e445f504943544f4752415048533a20224d69736320506963746f677261706873222c,
  0x2020202055424c4f434b5f4d495343454c4c414e454f55535f53594d424f4c533a20224d6973632053796d626f6c73222c,
  0x2020202055424c4f434b5f4d495343454c4c414e454f55535f544543484e4943414c3a20224d69736320546563686e6963616c222c,
  0x2020202055424c4f434b5f4d4f44493a20224d6f6469222c,
  0x2020202055424c4f434b5f53504143494e475f4d4f4449464945525f4c4554544552533a20224d6f646966696572204c657474657273222c,
  0x2020202055424c4f434b5f4d4f4449464945525f544f4e455f4c4554544552533a20224d6f64696669657220546f6e65204c657474657273222c,
  0x2020202055424c4f434b5f4d4f4e474f4c49414e3a20224d6f6e676f6c69616e222c,
  0x2020202055424c4f434b5f4d4f4e474f4c49414e5f535550504c454d454e543a20224d6f6e676f6c69616e20537570222c,
  0x2020202055424c4f434b5f4d524f3a20224d726f222c,
  0x2020202055424c4f434b5f4d554c54414e493a20224d756c74616e69222c,
  0x2020202055424c4f434b5f4d55534943414c5f53594d424f4c533a20224d75736963222c,
  0x2020202055424c4f434b5f4d59414e4d41523a20224d79616e6d6172222c,
  0x2020202055424c4f434b5f4d59414e4d41525f455854454e4445445f413a20224d79616e6d6172204578742041222c,
  0x2020202055424c4f434b5f4d59414e4d41525f455854454e4445445f423a20224d79616e6d6172204578742042222c,
  0x2020202055424c4f434b5f4e4f5f424c4f434b3a20224e42222c,
  0x2020202055424c4f434b5f4e4b4f3a20224e4b6f222c,
  0x2020202055424c4f434b5f4e414241544145414e3a20224e616261746165616e222c,
  0x2020202055424c4f434b5f4e414e44494e41474152493a20224e616e64696e6167617269222c,
  0x2020202055424c4f434b5f4e45575f5441495f4c55453a20224e657720546169204c7565222c,
  0x2020202055424c4f434b5f4e4557413a20224e657761222c,
  0x2020202055424c4f434b5f4e554d4245525f464f524d533a20224e756d62657220466f726d73222c,
  0x2020202055424c4f434b5f4e555348553a20224e75736875222c,
  0x2020202055424c4f434b5f4e5949414b454e475f505541434855455f484d4f4e473a20224e7969616b656e67205075616368756520486d6f6e67222c,
  0x2020202055424c4f434b5f4f50544943414c5f4348415241435445525f5245434f474e4954494f4e3a20224f4352222c,
  0x2020202055424c4f434b5f4f4748414d3a20224f6768616d222c,
  0x2020202055424c4f434b5f4f4c5f4348494b493a20224f6c204368696b69222c,
  0x2020202055424c4f434b5f4f4c445f48554e47415249414e3a20224f6c642048756e67617269616e222c,
  0x2020202055424c4f434b5f4f4c445f4954414c49433a20224f6c64204974616c6963222c,
  0x2020202055424c4f434b5f4f4c445f4e4f5254485f4152414249414e3a20224f6c64204e6f727468204172616269616e222c,
  0x2020202055424c4f434b5f4f4c445f5045524d49433a20224f6c64205065726d6963222c,
  0x2020202055424c4f434b5f4f4c445f5045525349414e3a20224f6c64205065727369616e222c,
  0x2020202055424c4f434b5f4f4c445f534f474449414e3a20224f6c6420536f676469616e222c,
  0x2020202055424c4f434b5f4f4c445f534f5554485f4152414249414e3a20224f6c6420536f757468204172616269616e222c,
  0x2020202055424c4f434b5f4f4c445f5455524b49433a20224f6c64205475726b6963222c,
  0x2020202055424c4f434b5f4f524959413a20224f72697961222c,
  0x2020202055424c4f434b5f4f524e414d454e54414c5f44494e47424154533a20224f726e616d656e74616c2044696e6762617473222c,
  0x2020202055424c4f434b5f4f534147453a20224f73616765222c,
  0x2020202055424c4f434b5f4f534d414e59413a20224f736d616e7961222c,
  0x2020202055424c4f434b5f4f54544f4d414e5f53495941515f4e554d424552533a20224f74746f6d616e205369796171204e756d62657273222c,
  0x2020202055424c4f434b5f505249564154455f5553455f415245413a2022505541222c,
  0x2020202055424c4f434b5f5041484157485f484d4f4e473a202250616861776820486d6f6e67222c,
  0x2020202055424c4f434b5f50414c4d5952454e453a202250616c6d7972656e65222c,
  0x2020202055424c4f434b5f5041555f43494e5f4841553a20225061752043696e20486175222c,
  0x2020202055424c4f434b5f50484147535f50413a20225068616773205061222c,
  0x2020202055424c4f434b5f5048414953544f535f444953433a20225068616973746f73222c,
  0x2020202055424c4f434b5f50484f454e494349414e3a202250686f656e696369616e222c,
  0x2020202055424c4f434b5f50484f4e455449435f455854454e53494f4e533a202250686f6e6574696320457874222c,
  0x2020202055424c4f434b5f50484f4e455449435f455854454e53494f4e535f535550504c454d454e543a202250686f6e657469632045787420537570222c,
  0x2020202055424c4f434b5f504c4159494e475f43415244533a2022506c6179696e67204361726473222c,
  0x2020202055424c4f434b5f5053414c5445525f5041484c4156493a20225073616c746572205061686c617669222c,
  0x2020202055424c4f434b5f47454e4552414c5f50554e4354554154494f4e3a202250756e6374756174696f6e222c,
  0x2020202055424c4f434b5f52454a414e473a202252656a616e67222c,
  0x2020202055424c4f434b5f52554d495f4e554d4552414c5f53594d424f4c533a202252756d69222c,
  0x2020202055424c4f434b5f52554e49433a202252756e6963222c,
  0x2020202055424c4f434b5f53414d41524954414e3a202253616d61726974616e222c,
  0x2020202055424c4f434b5f534155524153485452413a202253617572617368747261222c,
  0x2020202055424c4f434b5f534841524144413a202253686172616461222c,
  0x2020202055424c4f434b5f5348415649414e3a20225368617669616e222c,
  0x2020202055424c4f434b5f53484f525448414e445f464f524d41545f434f4e54524f4c533a202253686f727468616e6420466f726d617420436f6e74726f6c73222c,
  0x2020202055424c4f434b5f5349444448414d3a20225369646468616d222c,
  0x2020202055424c4f434b5f53494e48414c413a202253696e68616c61222c,
  0x2020202055424c4f434b5f53494e48414c415f415243484149435f4e554d424552533a202253696e68616c612041726368616963204e756d62657273222c,
  0x2020202055424c4f434b5f534d414c4c5f464f524d5f56415249414e54533a2022536d616c6c20466f726d73222c,
  0x2020202055424c4f434b5f534d414c4c5f4b414e415f455854454e53494f4e3a2022536d616c6c204b616e6120457874222c,
  0x2020202055424c4f434b5f534f474449414e3a2022536f676469616e222c,
  0x2020202055424c4f434b5f534f52415f534f4d50454e473a2022536f726120536f6d70656e67222c,
  0x2020202055424c4f434b5f534f594f4d424f3a2022536f796f6d626f222c,
  0x2020202055424c4f434b5f5350454349414c533a20225370656369616c73222c,
  0x2020202055424c4f434b5f53554e44414e4553453a202253756e64616e657365222c,
  0x2020202055424c4f434b5f53554e44414e4553455f535550504c454d454e543a202253756e64616e65736520537570222c,
  0x2020202055424c4f434b5f535550504c454d454e54414c5f4152524f57535f413a2022537570204172726f77732041222c,
  0x2020202055424c4f434b5f535550504c454d454e54414c5f4152524f57535f423a2022537570204172726f77732042222c,
  0x2020202055424c4f434b5f535550504c454d454e54414c5f4152524f57535f433a2022537570204172726f77732043222c,
  0x2020202055424c4f434b5f535550504c454d454e54414c5f4d415448454d41544943414c5f4f50455241544f52533a2022537570204d617468204f70657261746f7273222c,
  0x2020202055424c4f434b5f535550504c454d454e544152595f505249564154455f5553455f415245415f413a2022537570205055412041222c,
  0x2020202055424c4f434b5f535550504c454d454e544152595f505249564154455f5553455f415245415f423a2022537570205055412042222c,
  0x2020202055424c4f434b5f535550504c454d454e54414c5f50554e4354554154494f4e3a20225375702050756e6374756174696f6e222c,
  0x2020202055424c4f434b5f535550504c454d454e54414c5f53594d424f4c535f414e445f504943544f4752415048533a20225375702053796d626f6c7320416e6420506963746f677261706873222c,
  0x2020202055424c4f434b5f5355504552534352495054535f414e445f535542534352495054533a2022537570657220416e6420537562222c,
  0x2020202055424c4f434b5f535554544f4e5f5349474e57524954494e473a2022537574746f6e205369676e57726974696e67222c,
  0x2020202055424c4f434b5f53594c4f54495f4e414752493a202253796c6f7469204e61677269222c,
  0x2020202055424c4f434b5f53594d424f4c535f414e445f504943544f4752415048535f455854454e4445445f413a202253796d626f6c7320416e6420506963746f677261706873204578742041222c,
  0x2020202055424c4f434b5f53594d424f4c535f464f525f4c45474143595f434f4d505554494e473a202253796d626f6c7320466f72204c656761637920436f6d707574696e67222c,
  0x2020202055424c4f434b5f5359524941433a2022537972696163222c,
  0x2020202055424c4f434b5f5359524941435f535550504c454d454e543a202253797269616320537570222c,
  0x2020202055424c4f434b5f544147414c4f473a2022546167616c6f67222c,
  0x2020202055424c4f434b5f54414742414e57413a202254616762616e7761222c,
  0x2020202055424c4f434b5f544147533a202254616773222c,
  0x2020202055424c4f434b5f5441495f4c453a2022546169204c65222c,
  0x2020202055424c4f434b5f5441495f5448414d3a2022546169205468616d222c,
  0x2020202055424c4f434b5f5441495f564945543a20225461692056696574222c,
  0x2020202055424c4f434b5f5441495f5855414e5f4a494e475f53594d424f4c533a2022546169205875616e204a696e67222c,
  0x2020202055424c4f434b5f54414b52493a202254616b7269222c,
  0x2020202055424c4f434b5f54414d494c3a202254616d696c222c,
  0x2020202055424c4f434b5f54414d494c5f535550504c454d454e543a202254616d696c20537570222c,
  0x2020202055424c4f434b5f54414e4755543a202254616e677574222c,
  0x2020202055424c4f434b5f54414e4755545f434f4d504f4e454e54533a202254616e67757420436f6d706f6e656e7473222c,
  0x2020202055424c4f434b5f54414e4755545f535550504c454d454e543a202254616e67757420537570222c,
  0x2020202055424c4f434b5f54454c5547553a202254656c756775222c,
  0x2020202055424c4f434b5f544841414e413a2022546861616e61222c,
  0x2020202055424c4f434b5f544841493a202254686169222c,
  0x2020202055424c4f434b5f5449424554414e3a20225469626574616e222c,
  0x2020202055424c4f434b5f544946494e4147483a2022546966696e616768222c,
  0x2020202055424c4f434b5f544952485554413a202254697268757461222c,
  0x2020202055424c4f434b5f5452414e53504f52545f414e445f4d41505f53594d424f4c533a20225472616e73706f727420416e64204d6170222c,
  0x2020202055424c4f434b5f554e49464945445f43414e414449414e5f41424f524947494e414c5f53594c4c41424943533a202255434153222c,
  0x2020202055424c4f434b5f554e49464945445f43414e414449414e5f41424f524947494e414c5f53594c4c41424943535f455854454e4445443a20225543415320457874222c,
  0x2020202055424c4f434b5f55474152495449433a20225567617269746963222c,
  0x2020202055424c4f434b5f564152494154494f4e5f53454c4543544f52533a20225653222c,
  0x2020202055424c4f434b5f564152494154494f4e5f53454c4543544f52535f535550504c454d454e543a2022565320537570222c,
  0x2020202055424c4f434b5f5641493a2022566169222c,
  0x2020202055424c4f434b5f56454449435f455854454e53494f4e533a2022566564696320457874222c,
  0x2020202055424c4f434b5f564552544943414c5f464f524d533a2022566572746963616c20466f726d73222c,
  0x2020202055424c4f434b5f57414e43484f3a202257616e63686f222c,
  0x2020202055424c4f434b5f574152414e475f434954493a2022576172616e672043697469222c,
  0x2020202055424c4f434b5f59455a4944493a202259657a696469222c,
  0x2020202055424c4f434b5f59495f5241444943414c533a20225969205261646963616c73222c,
  0x2020202055424c4f434b5f59495f53594c4c41424c45533a202259692053796c6c61626c6573222c,
  0x2020202055424c4f434b5f59494a494e475f484558414752414d5f53594d424f4c533a202259696a696e67222c,
  0x2020202055424c4f434b5f5a414e4142415a41525f5351554152453a20225a616e6162617a61722053717561726522,
  0x7d,
  0x0,
  0x6465636f6d706f736974696f6e547970654e616d6573203d207b,
  0x20202020555f44545f43414e4f4e4943414c3a202263616e222c,
  0x20202020555f44545f434f4d5041543a2022636f6d222c,
  0x20202020555f44545f434952434c453a2022656e63222c,
  0x20202020555f44545f46494e414c3a202266696e222c,
  0x20202020555f44545f464f4e543a2022666f6e74222c,
  0x20202020555f44545f4652414354494f4e3a2022667261222c,
  0x20202020555f44545f494e495449414c3a2022696e6974222c,
  0x20202020555f44545f49534f4c415445443a202269736f222c,
  0x20202020555f44545f4d454449414c3a20226d6564222c,
  0x20202020555f44545f4e4152524f573a20226e6172222c,
  0x20202020555f44545f4e4f425245414b3a20226e62222c,
  0x20202020555f44545f4e4f4e453a20226e6f6e65222c,
  0x20202020555f44545f534d414c4c3a2022736d6c222c,
  0x20202020555f44545f5351554152453a2022737172222c,
  0x20202020555f44545f5355423a2022737562222c,
  0x20202020555f44545f53555045523a2022737570222c,
  0x20202020555f44545f564552544943414c3a202276657274222c,
  0x20202020555f44545f574944453a20227769646522,
  0x7d,
  0x0,
  0x65617374417369616e57696474684e616d6573203d207b,
  0x20202020555f45415f414d424947554f55533a202241222c,
  0x20202020555f45415f46554c4c57494454483a202246222c,
  0x20202020555f45415f48414c4657494454483a202248222c,
  0x20202020555f45415f4e45555452414c3a20224e222c,
  0x20202020555f45415f4e4152524f573a20224e61222c,
  0x20202020555f45415f574944453a20225722,
  0x7d,
  0x0,
  0x67656e6572616c43617465676f72794e616d6573203d207b,
  0x20202020555f434f4e54524f4c5f434841523a20224363222c,
  0x20202020555f464f524d41545f434841523a20224366222c,
  0x20202020555f554e41535349474e45443a2022436e222c,
  0x20202020555f505249564154455f5553455f434841523a2022436f222c,
  0x20202020555f535552524f474154453a20224373222c,
  0x20202020555f4c4f574552434153455f4c45545445523a20224c6c222c,
  0x20202020555f4d4f4449464945525f4c45545445523a20224c6d222c,
  0x20202020555f4f544845525f4c45545445523a20224c6f222c,
  0x20202020555f5449544c45434153455f4c45545445523a20224c74222c,
  0x20202020555f5550504552434153455f4c45545445523a20224c75222c,
  0x20202020555f434f4d42494e494e475f53504143494e475f4d41524b3a20224d63222c,
  0x20202020555f454e434c4f53494e475f4d41524b3a20224d65222c,
  0x20202020555f4e4f4e5f53504143494e475f4d41524b3a20224d6e222c,
  0x20202020555f444543494d414c5f44494749545f4e554d4245523a20224e64222c,
  0x20202020555f4c45545445525f4e554d4245523a20224e6c222c,
  0x20202020555f4f544845525f4e554d4245523a20224e6f222c,
  0x20202020555f434f4e4e4543544f525f50554e4354554154494f4e3a20225063222c,
  0x20202020555f444153485f50554e4354554154494f4e3a20225064222c,
  0x20202020555f454e445f50554e4354554154494f4e3a20225065222c,
  0x20202020555f46494e414c5f50554e4354554154494f4e3a20225066222c,
  0x20202020555f494e495449414c5f50554e4354554154494f4e3a20225069222c,
  0x20202020555f4f544845525f50554e4354554154494f4e3a2022506f222c,
  0x20202020555f53544152545f50554e4354554154494f4e3a20225073222c,
  0x20202020555f43555252454e43595f53594d424f4c3a20225363222c,
  0x20202020555f4d4f4449464945525f53594d424f4c3a2022536b222c,
  0x20202020555f4d4154485f53594d424f4c3a2022536d222c,
  0x20202020555f4f544845525f53594d424f4c3a2022536f222c,
  0x20202020555f4c494e455f534550415241544f523a20225a6c222c,
  0x20202020555f5041524147524150485f534550415241544f523a20225a70222c,
  0x20202020555f53504143455f534550415241544f523a20225a7322,
  0x7d,
  0x0,
  0x6772617068656d65436c7573746572427265616b4e616d6573203d207b,
  0x20202020555f4743425f434f4e54524f4c3a2022434e222c,
  0x20202020555f4743425f43523a20224352222c,
  0x20202020555f4743425f455f424153453a20224542222c,
  0x20202020555f4743425f455f424153455f47415a3a2022454247222c,
  0x20202020555f4743425f455f4d4f4449464945523a2022454d222c,
  0x20202020555f4743425f455854454e443a20224558222c,
  0x20202020555f4743425f474c55455f41465445525f5a574a3a202247415a222c,
  0x20202020555f4743425f4c3a20224c222c,
  0x20202020555f4743425f4c463a20224c46222c,
  0x20202020555f4743425f4c563a20224c56222c,
  0x20202020555f4743425f4c56543a20224c5654222c,
  0x20202020555f4743425f50524550454e443a20225050222c,
  0x20202020555f4743425f524547494f4e414c5f494e44494341544f523a20225249222c,
  0x20202020555f4743425f53504143494e475f4d41524b3a2022534d222c,
  0x20202020555f4743425f543a202254222c,
  0x20202020555f4743425f563a202256222c,
  0x20202020555f4743425f4f544845523a20225858222c,
  0x20202020555f4743425f5a574a3a20225a574a22,
  0x7d,
  0x0,
  0x68616e67756c53796c6c61626c65547970654e616d6573203d207b,
  0x20202020555f4853545f4c454144494e475f4a414d4f3a20224c222c,
  0x20202020555f4853545f4c565f53594c4c41424c453a20224c56222c,
  0x20202020555f4853545f4c56545f53594c4c41424c453a20224c5654222c,
  0x20202020555f4853545f4e4f545f4150504c494341424c453a20224e41222c,
  0x20202020555f4853545f545241494c494e475f4a414d4f3a202254222c,
  0x20202020555f4853545f564f57454c5f4a414d4f3a20225622,
  0x7d,
  0x0,
  0x696e646963506f736974696f6e616c43617465676f72794e616d6573203d207b,
  0x20202020555f494e50435f424f54544f4d3a2022426f74746f6d222c,
  0x20202020555f494e50435f424f54544f4d5f414e445f4c4546543a2022426f74746f6d5f416e645f4c656674222c,
  0x20202020555f494e50435f424f54544f4d5f414e445f52494748543a2022426f74746f6d5f416e645f5269676874222c,
  0x20202020555f494e50435f4c4546543a20224c656674222c,
  0x20202020555f494e50435f4c4546545f414e445f52494748543a20224c6566745f416e645f5269676874222c,
  0x20202020555f494e50435f4e413a20224e41222c,
  0x20202020555f494e50435f4f56455253545255434b3a20224f76657273747275636b222c,
  0x20202020555f494e50435f52494748543a20225269676874222c,
  0x20202020555f494e50435f544f503a2022546f70222c,
  0x20202020555f494e50435f544f505f414e445f424f54544f4d3a2022546f705f416e645f426f74746f6d222c,
  0x20202020555f494e50435f544f505f414e445f424f54544f4d5f414e445f4c4546543a2022546f705f416e645f426f74746f6d5f416e645f4c656674222c,
  0x20202020555f494e50435f544f505f414e445f424f54544f4d5f414e445f52494748543a2022546f705f416e645f426f74746f6d5f416e645f5269676874222c,
  0x20202020555f494e50435f544f505f414e445f4c4546543a2022546f705f416e645f4c656674222c,
  0x20202020555f494e50435f544f505f414e445f4c4546545f414e445f52494748543a2022546f705f416e645f4c6566745f416e645f5269676874222c,
  0x20202020555f494e50435f544f505f414e445f52494748543a2022546f705f416e645f5269676874222c,
  0x20202020555f494e50435f56495355414c5f4f524445525f4c4546543a202256697375616c5f4f726465725f4c65667422,
  0x7d,
  0x0,
  0x696e64696353796c6c6162696343617465676f72794e616d6573203d207b,
  0x20202020555f494e53435f41564147524148413a20224176616772616861222c,
  0x20202020555f494e53435f42494e44553a202242696e6475222c,
  0x20202020555f494e53435f425241484d495f4a4f494e494e475f4e554d4245523a2022427261686d695f4a6f696e696e675f4e756d626572222c,
  0x20202020555f494e53435f43414e54494c4c4154494f4e5f4d41524b3a202243616e74696c6c6174696f6e5f4d61726b222c,
  0x20202020555f494e53435f434f4e534f4e414e543a2022436f6e736f6e616e74222c,
  0x20202020555f494e53435f434f4e534f4e414e545f444541443a2022436f6e736f6e616e745f44656164222c,
  0x20202020555f494e53435f434f4e534f4e414e545f46494e414c3a2022436f6e736f6e616e745f46696e616c222c,
  0x20202020555f494e53435f434f4e534f4e414e545f484541445f4c45545445523a2022436f6e736f6e616e745f486561645f4c6574746572222c,
  0x20202020555f494e53435f434f4e534f4e414e545f494e495449414c5f504f535446495845443a2022436f6e736f6e616e745f496e697469616c5f506f73746669786564222c,
  0x20202020555f494e53435f434f4e534f4e414e545f4b494c4c45523a2022436f6e736f6e616e745f4b696c6c6572222c,
  0x20202020555f494e53435f434f4e534f4e414e545f4d454449414c3a2022436f6e736f6e616e745f4d656469616c222c,
  0x20202020555f494e53435f434f4e534f4e414e545f504c414345484f4c4445523a2022436f6e736f6e616e745f506c616365686f6c646572222c,
  0x20202020555f494e53435f434f4e534f4e414e545f505245434544494e475f52455048413a2022436f6e736f6e616e745f507265636564696e675f5265706861222c,
  0x20202020555f494e53435f434f4e534f4e414e545f50524546495845443a2022436f6e736f6e616e745f5072656669786564222c,
  0x20202020555f494e53435f434f4e534f4e414e545f5355424a4f494e45443a2022436f6e736f6e616e745f5375626a6f696e6564222c,
  0x20202020555f494e53435f434f4e534f4e414e545f53554343454544494e475f52455048413a2022436f6e736f6e616e745f53756363656564696e675f5265706861222c,
  0x20202020555f494e53435f434f4e534f4e414e545f574954485f535441434b45523a2022436f6e736f6e616e745f576974685f537461636b6572222c,
  0x20202020555f494e53435f47454d494e4154494f4e5f4d41524b3a202247656d696e6174696f6e5f4d61726b222c,
  0x20202020555f494e53435f494e56495349424c455f535441434b45523a2022496e76697369626c655f537461636b6572222c,
  0x20202020555f494e53435f4a4f494e45523a20224a6f696e6572222c,
  0x20202020555f494e53435f4d4f44494659494e475f4c45545445523a20224d6f64696679696e675f4c6574746572222c,
  0x20202020555f494e53435f4e4f4e5f4a4f494e45523a20224e6f6e5f4a6f696e6572222c,
  0x20202020555f494e53435f4e554b54413a20224e756b7461222c,
  0x20202020555f494e53435f4e554d4245523a20224e756d626572222c,
  0x20202020555f494e53435f4e554d4245525f4a4f494e45523a20224e756d6265725f4a6f696e6572222c,
  0x20202020555f494e53435f4f544845523a20224f74686572222c,
  0x20202020555f494e53435f505552455f4b494c4c45523a2022507572655f4b696c6c6572222c,
  0x20202020555f494e53435f52454749535445525f534849465445523a202252656769737465725f53686966746572222c,
  0x20202020555f494e53435f53594c4c41424c455f4d4f4449464945523a202253796c6c61626c655f4d6f646966696572222c,
  0x20202020555f494e53435f544f4e455f4c45545445523a2022546f6e655f4c6574746572222c,
  0x20202020555f494e53435f544f4e455f4d41524b3a2022546f6e655f4d61726b222c,
  0x20202020555f494e53435f564952414d413a2022566972616d61222c,
  0x20202020555f494e53435f564953415247413a202256697361726761222c,
  0x20202020555f494e53435f564f57454c3a2022566f77656c222c,
  0x20202020555f494e53435f564f57454c5f444550454e44454e543a2022566f77656c5f446570656e64656e74222c,
  0x20202020555f494e53435f564f57454c5f494e444550454e44454e543a2022566f77656c5f496e646570656e64656e7422,
  0x7d,
  0x0,
  0x6a6f696e696e6747726f75704e616d6573203d207b,
  0x20202020555f4a475f4146524943414e5f4645483a20224166726963616e20466568222c,
  0x20202020555f4a475f4146524943414e5f4e4f4f4e3a20224166726963616e204e6f6f6e222c,
  0x20202020555f4a475f4146524943414e5f5141463a20224166726963616e20516166222c,
  0x20202020555f4a475f41494e3a202241696e222c,
  0x20202020555f4a475f414c4150483a2022416c617068222c,
  0x20202020555f4a475f414c45463a2022416c6566222c,
  0x20202020555f4a475f4245483a2022426568222c,
  0x20202020555f4a475f424554483a202242657468222c,
  0x20202020555f4a475f42555255534841534b495f5945485f4241525245453a202242757275736861736b692059656820426172726565222c,
  0x20202020555f4a475f44414c3a202244616c222c,
  0x20202020555f4a475f44414c4154485f524953483a202244616c6174682052697368222c,
  0x20202020555f4a475f453a202245222c,
  0x20202020555f4a475f46415253495f5945483a2022466172736920596568222c,
  0x20202020555f4a475f46453a20224665222c,
  0x20202020555f4a475f4645483a2022466568222c,
  0x20202020555f4a475f46494e414c5f53454d4b4154483a202246696e616c2053656d6b617468222c,
  0x20202020555f4a475f4741463a2022476166222c,
  0x20202020555f4a475f47414d414c3a202247616d616c222c,
  0x20202020555f4a475f4841483a2022486168222c,
  0x20202020555f4a475f48414e4946495f524f48494e4759415f4b494e4e415f59413a202248616e69666920526f68696e677961204b696e6e61205961222c,
  0x20202020555f4a475f48414e4946495f524f48494e4759415f50413a202248616e69666920526f68696e677961205061222c,
  0x20202020555f4a475f48453a20224865222c,
  0x20202020555f4a475f4845483a2022486568222c,
  0x20202020555f4a475f4845485f474f414c3a202248656820476f616c222c,
  0x20202020555f4a475f484554483a202248657468222c,
  0x20202020555f4a475f4b41463a20224b6166222c,
  0x20202020555f4a475f4b4150483a20224b617068222c,
  0x20202020555f4a475f4b484150483a20224b68617068222c,
  0x20202020555f4a475f4b4e4f545445445f4845483a20224b6e6f7474656420486568222c,
  0x20202020555f4a475f4c414d3a20224c616d222c,
  0x20202020555f4a475f4c414d4144483a20224c616d616468222c,
  0x20202020555f4a475f4d414c4159414c414d5f4248413a20224d616c6179616c616d20426861222c,
  0x20202020555f4a475f4d414c4159414c414d5f4a413a20224d616c6179616c616d204a61222c,
  0x20202020555f4a475f4d414c4159414c414d5f4c4c413a20224d616c6179616c616d204c6c61222c,
  0x20202020555f4a475f4d414c4159414c414d5f4c4c4c413a20224d616c6179616c616d204c6c6c61222c,
  0x20202020555f4a475f4d414c4159414c414d5f4e47413a20224d616c6179616c616d204e6761222c,
  0x20202020555f4a475f4d414c4159414c414d5f4e4e413a20224d616c6179616c616d204e6e61222c,
  0x20202020555f4a475f4d414c4159414c414d5f4e4e4e413a20224d616c6179616c616d204e6e6e61222c,
  0x20202020555f4a475f4d414c4159414c414d5f4e59413a20224d616c6179616c616d204e7961222c,
  0x20202020555f4a475f4d414c4159414c414d5f52413a20224d616c6179616c616d205261222c,
  0x20202020555f4a475f4d414c4159414c414d5f5353413a20224d616c6179616c616d20537361222c,
  0x20202020555f4a475f4d414c4159414c414d5f5454413a20224d616c6179616c616d20547461222c,
  0x20202020555f4a475f4d414e4943484145414e5f414c4550483a20224d616e6963686165616e20416c657068222c,
  0x20202020555f4a475f4d414e4943484145414e5f4159494e3a20224d616e6963686165616e204179696e222c,
  0x20202020555f4a475f4d414e4943484145414e5f424554483a20224d616e6963686165616e2042657468222c,
  0x20202020555f4a475f4d414e4943484145414e5f44414c4554483a20224d616e6963686165616e2044616c657468222c,
  0x20202020555f4a475f4d414e4943484145414e5f4448414d4544483a20224d616e6963686165616e204468616d656468222c,
  0x20202020555f4a475f4d414e4943484145414e5f464956453a20224d616e6963686165616e2046697665222c,
  0x20202020555f4a475f4d414e4943484145414e5f47494d454c3a20224d616e6963686165616e2047696d656c222c,
  0x20202020555f4a475f4d414e4943484145414e5f484554483a20224d616e6963686165616e2048657468222c,
  0x20202020555f4a475f4d414e4943484145414e5f48554e445245443a20224d616e6963686165616e2048756e64726564222c,
  0x20202020555f4a475f4d414e4943484145414e5f4b4150483a20224d616e6963686165616e204b617068222c,
  0x20202020555f4a475f4d414e4943484145414e5f4c414d4544483a20224d616e6963686165616e204c616d656468222c,
  0x20202020555f4a475f4d414e4943484145414e5f4d454d3a20224d616e6963686165616e204d656d222c,
  0x20202020555f4a475f4d414e4943484145414e5f4e554e3a20224d616e6963686165616e204e756e222c,
  0x20202020555f4a475f4d414e4943484145414e5f4f4e453a20224d616e6963686165616e204f6e65222c,
  0x20202020555f4a475f4d414e4943484145414e5f50453a20224d616e6963686165616e205065222c,
  0x20202020555f4a475f4d414e4943484145414e5f514f50483a20224d616e6963686165616e20516f7068222c,
  0x20202020555f4a475f4d414e4943484145414e5f524553483a20224d616e6963686165616e2052657368222c,
  0x20202020555f4a475f4d414e4943484145414e5f53414448453a20224d616e6963686165616e205361646865222c,
  0x20202020555f4a475f4d414e4943484145414e5f53414d454b483a20224d616e6963686165616e2053616d656b68222c,
  0x20202020555f4a475f4d414e4943484145414e5f5441573a20224d616e6963686165616e20546177222c,
  0x20202020555f4a475f4d414e4943484145414e5f54454e3a20224d616e6963686165616e2054656e222c,
  0x20202020555f4a475f4d414e4943484145414e5f544554483a20224d616e6963686165616e2054657468222c,
  0x20202020555f4a475f4d414e4943484145414e5f5448414d4544483a20224d616e6963686165616e205468616d656468222c,
  0x20202020555f4a475f4d414e4943484145414e5f5457454e54593a20224d616e6963686165616e205477656e7479222c,
  0x20202020555f4a475f4d414e4943484145414e5f5741573a20224d616e6963686165616e20576177222c,
  0x20202020555f4a475f4d414e4943484145414e5f594f44483a20224d616e6963686165616e20596f6468222c,
  0x20202020555f4a475f4d414e4943484145414e5f5a4159494e3a20224d616e6963686165616e205a6179696e222c,
  0x20202020555f4a475f4d45454d3a20224d65656d222c,
  0x20202020555f4a475f4d494d3a20224d696d222c,
  0x20202020555f4a475f4e4f5f4a4f494e494e475f47524f55503a20224e6f204a6f696e696e672047726f7570222c,
  0x20202020555f4a475f4e4f4f4e3a20224e6f6f6e222c,
  0x20202020555f4a475f4e554e3a20224e756e222c,
  0x20202020555f4a475f4e59413a20224e7961222c,
  0x20202020555f4a475f50453a20225065222c,
  0x20202020555f4a475f5141463a2022516166222c,
  0x20202020555f4a475f514150483a202251617068222c,
  0x20202020555f4a475f5245483a2022526568222c,
  0x20202020555f4a475f52455645525345445f50453a20225265766572736564205065222c,
  0x20202020555f4a475f524f48494e4759415f5945483a2022526f68696e67796120596568222c,
  0x20202020555f4a475f5341443a2022536164222c,
  0x20202020555f4a475f53414448453a20225361646865222c,
  0x20202020555f4a475f5345454e3a20225365656e222c,
  0x20202020555f4a475f53454d4b4154483a202253656d6b617468222c,
  0x20202020555f4a475f5348494e3a20225368696e222c,
  0x20202020555f4a475f53545241494748545f5741573a2022537472616967687420576177222c,
  0x20202020555f4a475f53574153485f4b41463a20225377617368204b6166222c,
  0x20202020555f4a475f5359524941435f5741573a202253797269616320576177222c,
  0x20202020555f4a475f5441483a2022546168222c,
  0x20202020555f4a475f5441573a2022546177222c,
  0x20202020555f4a475f5445485f4d4152425554413a2022546568204d617262757461222c,
  0x20202020555f4a475f48414d5a415f4f4e5f4845485f474f414c3a2022546568204d61726275746120476f616c222c,
  0x20202020555f4a475f544554483a202254657468222c,
  0x20202020555f4a475f5741573a2022576177222c,
  0x20202020555f4a475f5945483a2022596568222c,
  0x20202020555f4a475f5945485f4241525245453a202259656820426172726565222c,
  0x20202020555f4a475f5945485f574954485f5441494c3a20225965682057697468205461696c222c,
  0x20202020555f4a475f595544483a202259756468222c,
  0x20202020555f4a475f595544485f48453a202259756468204865222c,
  0x20202020555f4a475f5a41494e3a20225a61696e222c,
  0x20202020555f4a475f5a4841494e3a20225a6861696e22,
  0x7d,
  0x0,
  0x6a6f696e696e67547970654e616d6573203d207b,
  0x20202020555f4a545f4a4f494e5f43415553494e473a202243222c,
  0x20202020555f4a545f4455414c5f4a4f494e494e473a202244222c,
  0x20202020555f4a545f4c4546545f4a4f494e494e473a20224c222c,
  0x20202020555f4a545f52494748545f4a4f494e494e473a202252222c,
  0x20202020555f4a545f5452414e53504152454e543a202254222c,
  0x20202020555f4a545f4e4f4e5f4a4f494e494e473a20225522,
  0x7d,
  0x0,
  0x6c696e65427265616b4e616d6573203d207b,
  0x20202020555f4c425f414d424947554f55533a20224149222c,
  0x20202020555f4c425f414c50484142455449433a2022414c222c,
  0x20202020555f4c425f425245414b5f424f54483a20224232222c,
  0x20202020555f4c425f425245414b5f41465445523a20224241222c,
  0x20202020555f4c425f425245414b5f4245464f52453a20224242222c,
  0x20202020555f4c425f4d414e4441544f52595f425245414b3a2022424b222c,
  0x20202020555f4c425f434f4e54494e47454e545f425245414b3a20224342222c,
  0x20202020555f4c425f434f4e444954494f4e414c5f4a4150414e4553455f535441525445523a2022434a222c,
  0x20202020555f4c425f434c4f53455f50554e4354554154494f4e3a2022434c222c,
  0x20202020555f4c425f434f4d42494e494e475f4d41524b3a2022434d222c,
  0x20202020555f4c425f434c4f53455f504152454e5448455349533a20224350222c,
  0x20202020555f4c425f43415252494147455f52455455524e3a20224352222c,
  0x20202020555f4c425f455f424153453a20224542222c,
  0x20202020555f4c425f455f4d4f4449464945523a2022454d222c,
  0x20202020555f4c425f4558434c414d4154494f4e3a20224558222c,
  0x20202020555f4c425f474c55453a2022474c222c,
  0x20202020555f4c425f48323a20224832222c,
  0x20202020555f4c425f48333a20224833222c,
  0x20202020555f4c425f4845425245575f4c45545445523a2022484c222c,
  0x20202020555f4c425f48595048454e3a20224859222c,
  0x20202020555f4c425f4944454f475241504849433a20224944222c,
  0x20202020555f4c425f494e534550415241424c453a2022494e222c,
  0x20202020555f4c425f494e4649585f4e554d455249433a20224953222c,
  0x20202020555f4c425f4a4c3a20224a4c222c,
  0x20202020555f4c425f4a543a20224a54222c,
  0x20202020555f4c425f4a563a20224a56222c,
  0x20202020555f4c425f4c494e455f464545443a20224c46222c,
  0x20202020555f4c425f4e4558545f4c494e453a20224e4c222c,
  0x20202020555f4c425f4e4f4e535441525445523a20224e53222c,
  0x20202020555f4c425f4e554d455249433a20224e55222c,
  0x20202020555f4c425f4f50454e5f50554e4354554154494f4e3a20224f50222c,
  0x20202020555f4c425f504f53544649585f4e554d455249433a2022504f222c,
  0x20202020555f4c425f5052454649585f4e554d455249433a20225052222c,
  0x20202020555f4c425f51554f544154494f4e3a20225155222c,
  0x20202020555f4c425f524547494f4e414c5f494e44494341544f523a20225249222c,
  0x20202020555f4c425f434f4d504c45585f434f4e544558543a20225341222c,
  0x20202020555f4c425f535552524f474154453a20225347222c,
  0x20202020555f4c425f53504143453a20225350222c,
  0x20202020555f4c425f425245414b5f53594d424f4c533a20225359222c,
  0x20202020555f4c425f574f52445f4a4f494e45523a2022574a222c,
  0x20202020555f4c425f554e4b4e4f574e3a20225858222c,
  0x20202020555f4c425f5a5753504143453a20225a57222c,
  0x20202020555f4c425f5a574a3a20225a574a22,
  0x7d,
  0x0,
  0x6e756d626572547970654e616d6573203d207b,
  0x20202020555f4e545f444543494d414c3a20224465222c,
  0x20202020555f4e545f44494749543a20224469222c,
  0x20202020555f4e545f4e4f4e453a20224e6f6e65222c,
  0x20202020555f4e545f4e554d455249433a20224e7522,
  0x7d,
  0x0,
  0x73656e74656e6365427265616b4e616d6573203d207b,
  0x20202020555f53425f415445524d3a20224154222c,
  0x20202020555f53425f434c4f53453a2022434c222c,
  0x20202020555f53425f43523a20224352222c,
  0x20202020555f53425f455854454e443a20224558222c,
  0x20202020555f53425f464f524d41543a2022464f222c,
  0x20202020555f53425f4f4c45545445523a20224c45222c,
  0x20202020555f53425f4c463a20224c46222c,
  0x20202020555f53425f4c4f5745523a20224c4f222c,
  0x20202020555f53425f4e554d455249433a20224e55222c,
  0x20202020555f53425f53434f4e54494e55453a20225343222c,
  0x20202020555f53425f5345503a20225345222c,
  0x20202020555f53425f53503a20225350222c,
  0x20202020555f53425f535445524d3a20225354222c,
  0x20202020555f53425f55505045523a20225550222c,
  0x20202020555f53425f4f544845523a2022585822,
  0x7d,
  0x0,
  0x7363726970744e616d6573203d207b,
  0x20202020555343524950545f41444c414d3a202241646c6d222c,
  0x20202020555343524950545f4146414b413a20224166616b222c,
  0x20202020555343524950545f43415543415349414e5f414c42414e49414e3a202241676862222c,
  0x20202020555343524950545f41484f4d3a202241686f6d222c,
  0x20202020555343524950545f4152414249433a202241726162222c,
  0x20202020555343524950545f494d50455249414c5f4152414d4149433a202241726d69222c,
  0x20202020555343524950545f41524d454e49414e3a202241726d6e222c,
  0x20202020555343524950545f4156455354414e3a202241767374222c,
  0x20202020555343524950545f42414c494e4553453a202242616c69222c,
  0x20202020555343524950545f42414d554d3a202242616d75222c,
  0x20202020555343524950545f42415353415f5641483a202242617373222c,
  0x20202020555343524950545f424154414b3a20224261746b222c,
  0x20202020555343524950545f42454e47414c493a202242656e67222c,
  0x20202020555343524950545f424841494b53554b493a202242686b73222c,
  0x20202020555343524950545f424c495353594d424f4c533a2022426c6973222c,
  0x20202020555343524950545f424f504f4d4f464f3a2022426f706f222c,
  0x20202020555343524950545f425241484d493a202242726168222c,
  0x20202020555343524950545f425241494c4c453a202242726169222c,
  0x20202020555343524950545f425547494e4553453a202242756769222c,
  0x20202020555343524950545f42554849443a202242756864222c,
  0x20202020555343524950545f4348414b4d413a202243616b6d222c,
  0x20202020555343524950545f43414e414449414e5f41424f524947494e414c3a202243616e73222c,
  0x20202020555343524950545f43415249414e3a202243617269222c,
  0x20202020555343524950545f4348414d3a20224368616d222c,
  0x20202020555343524950545f434845524f4b45453a202243686572222c,
  0x20202020555343524950545f43484f5241534d49414e3a202243687273222c,
  0x20202020555343524950545f43495254483a202243697274222c,
  0x20202020555343524950545f434f505449433a2022436f7074222c,
  0x20202020555343524950545f43595052494f543a202243707274222c,
  0x20202020555343524950545f435952494c4c49433a20224379726c222c,
  0x20202020555343524950545f4f4c445f4348555243485f534c41564f4e49435f435952494c4c49433a202243797273222c,
  0x20202020555343524950545f444556414e41474152493a202244657661222c,
  0x20202020555343524950545f44495645535f414b5552553a20224469616b222c,
  0x20202020555343524950545f444f4752413a2022446f6772222c,
  0x20202020555343524950545f444553455245543a202244737274222c,
  0x20202020555343524950545f4455504c4f59414e3a20224475706c222c,
  0x20202020555343524950545f44454d4f5449435f454759505449414e3a202245677964222c,
  0x20202020555343524950545f48494552415449435f454759505449414e3a202245677968222c,
  0x20202020555343524950545f454759505449414e5f484945524f474c595048533a202245677970222c,
  0x20202020555343524950545f454c424153414e3a2022456c6261222c,
  0x20202020555343524950545f454c594d4149433a2022456c796d222c,
  0x20202020555343524950545f455448494f5049433a202245746869222c,
  0x20202020555343524950545f4b485554535552493a202247656f6b222c,
  0x20202020555343524950545f47454f524749414e3a202247656f72222c,
  0x20202020555343524950545f474c41474f4c495449433a2022476c6167222c,
  0x20202020555343524950545f47554e4a414c415f474f4e44493a2022476f6e67222c,
  0x20202020555343524950545f4d41534152414d5f474f4e44493a2022476f6e6d222c,
  0x20202020555343524950545f474f544849433a2022476f7468222c,
  0x20202020555343524950545f4752414e5448413a20224772616e222c,
  0x20202020555343524950545f475245454b3a20224772656b222c,
  0x20202020555343524950545f47554a41524154493a202247756a72222c,
  0x20202020555343524950545f4755524d554b48493a202247757275222c,
  0x20202020555343524950545f48414e5f574954485f424f504f4d4f464f3a202248616e62222c,
  0x20202020555343524950545f48414e47554c3a202248616e67222c,
  0x20202020555343524950545f48414e3a202248616e69222c,
  0x20202020555343524950545f48414e554e4f4f3a202248616e6f222c,
  0x20202020555343524950545f53494d504c49464945445f48414e3a202248616e73222c,
  0x20202020555343524950545f545241444954494f4e414c5f48414e3a202248616e74222c,
  0x20202020555343524950545f48415452414e3a202248617472222c,
  0x20202020555343524950545f4845425245573a202248656272222c,
  0x20202020555343524950545f4849524147414e413a202248697261222c,
  0x20202020555343524950545f414e41544f4c49414e5f484945524f474c595048533a2022486c7577222c,
  0x20202020555343524950545f5041484157485f484d4f4e473a2022486d6e67222c,
  0x20202020555343524950545f4e5949414b454e475f505541434855455f484d4f4e473a2022486d6e70222c,
  0x20202020555343524950545f4b4154414b414e415f4f525f4849524147414e413a202248726b74222c,
  0x20202020555343524950545f4f4c445f48554e47415249414e3a202248756e67222c,
  0x20202020555343524950545f484152415050414e5f494e4455533a2022496e6473222c,
  0x20202020555343524950545f4f4c445f4954414c49433a20224974616c222c,
  0x20202020555343524950545f4a414d4f3a20224a616d6f222c,
  0x20202020555343524950545f4a4156414e4553453a20224a617661222c,
  0x20202020555343524950545f4a4150414e4553453a20224a70616e222c,
  0x20202020555343524950545f4a55524348454e3a20224a757263222c,
  0x20202020555343524950545f4b415941485f4c493a20224b616c69222c,
  0x20202020555343524950545f4b4154414b414e413a20224b616e61222c,
  0x20202020555343524950545f4b4841524f53485448493a20224b686172222c,
  0x20202020555343524950545f4b484d45523a20224b686d72222c,
  0x20202020555343524950545f4b484f4a4b493a20224b686f6a222c,
  0x20202020555343524950545f4b484954414e5f534d414c4c5f5343524950543a20224b697473222c,
  0x20202020555343524950545f4b414e4e4144413a20224b6e6461222c,
  0x20202020555343524950545f4b4f5245414e3a20224b6f7265222c,
  0x20202020555343524950545f4b50454c4c453a20224b70656c222c,
  0x20202020555343524950545f4b41495448493a20224b746869222c,
  0x20202020555343524950545f4c414e4e413a20224c616e61222c,
  0x20202020555343524950545f4c414f3a20224c616f6f222c,
  0x20202020555343524950545f4c4154494e5f4652414b5455523a20224c617466222c,
  0x20202020555343524950545f4c4154494e5f4741454c49433a20224c617467222c,
  0x20202020555343524950545f4c4154494e3a20224c61746e222c,
  0x20202020555343524950545f4c45504348413a20224c657063222c,
  0x20202020555343524950545f4c494d42553a20224c696d62222c,
  0x20202020555343524950545f4c494e4541525f413a20224c696e61222c,
  0x20202020555343524950545f4c494e4541525f423a20224c696e62222c,
  0x20202020555343524950545f4c4953553a20224c697375222c,
  0x20202020555343524950545f4c4f4d413a20224c6f6d61222c,
  0x20202020555343524950545f4c594349414e3a20224c796369222c,
  0x20202020555343524950545f4c594449414e3a20224c796469222c,
  0x20202020555343524950545f4d4148414a414e493a20224d61686a222c,
  0x20202020555343524950545f4d414b415341523a20224d616b61222c,
  0x20202020555343524950545f4d414e444149433a20224d616e64222c,
  0x20202020555343524950545f4d414e4943484145414e3a20224d616e69222c,
  0x20202020555343524950545f4d41524348454e3a20224d617263222c,
  0x20202020555343524950545f4d4159414e5f484945524f474c595048533a20224d617961222c,
  0x20202020555343524950545f4d4544454641494452494e3a20224d656466222c,
  0x20202020555343524950545f4d454e44453a20224d656e64222c,
  0x20202020555343524950545f4d45524f495449435f435552534956453a20224d657263222c,
  0x20202020555343524950545f4d45524f495449435f484945524f474c595048533a20224d65726f222c,
  0x20202020555343524950545f4d414c4159414c414d3a20224d6c796d222c,
  0x20202020555343524950545f4d4f44493a20224d6f6469222c,
  0x20202020555343524950545f4d4f4e474f4c49414e3a20224d6f6e67222c,
  0x20202020555343524950545f4d4f4f4e3a20224d6f6f6e222c,
  0x20202020555343524950545f4d524f3a20224d726f6f222c,
  0x20202020555343524950545f4d45495445495f4d4159454b3a20224d746569222c,
  0x20202020555343524950545f4d554c54414e493a20224d756c74222c,
  0x20202020555343524950545f4d59414e4d41523a20224d796d72222c,
  0x20202020555343524950545f4e414e44494e41474152493a20224e616e64222c,
  0x20202020555343524950545f4f4c445f4e4f5254485f4152414249414e3a20224e617262222c,
  0x20202020555343524950545f4e414241544145414e3a20224e626174222c,
  0x20202020555343524950545f4e4557413a20224e657761222c,
  0x20202020555343524950545f4e414b48495f474542413a20224e6b6762222c,
  0x20202020555343524950545f4e4b4f3a20224e6b6f6f222c,
  0x20202020555343524950545f4e555348553a20224e736875222c,
  0x20202020555343524950545f4f4748414d3a20224f67616d222c,
  0x20202020555343524950545f4f4c5f4348494b493a20224f6c636b222c,
  0x20202020555343524950545f4f524b484f4e3a20224f726b68222c,
  0x20202020555343524950545f4f524959413a20224f727961222c,
  0x20202020555343524950545f4f534147453a20224f736765222c,
  0x20202020555343524950545f4f534d414e59413a20224f736d61222c,
  0x20202020555343524950545f50414c4d5952454e453a202250616c6d222c,
  0x20202020555343524950545f5041555f43494e5f4841553a202250617563222c,
  0x20202020555343524950545f4f4c445f5045524d49433a20225065726d222c,
  0x20202020555343524950545f50484147535f50413a202250686167222c,
  0x20202020555343524950545f494e534352495054494f4e414c5f5041484c4156493a202250686c69222c,
  0x20202020555343524950545f5053414c5445525f5041484c4156493a202250686c70222c,
  0x20202020555343524950545f424f4f4b5f5041484c4156493a202250686c76222c,
  0x20202020555343524950545f50484f454e494349414e3a202250686e78222c,
  0x20202020555343524950545f4d49414f3a2022506c7264222c,
  0x20202020555343524950545f494e534352495054494f4e414c5f504152544849414e3a202250727469222c,
  0x20202020555343524950545f52454a414e473a2022526a6e67222c,
  0x20202020555343524950545f48414e4946495f524f48494e4759413a2022526f6867222c,
  0x20202020555343524950545f524f4e474f524f4e474f3a2022526f726f222c,
  0x20202020555343524950545f52554e49433a202252756e72222c,
  0x20202020555343524950545f53414d41524954414e3a202253616d72222c,
  0x20202020555343524950545f5341524154493a202253617261222c,
  0x20202020555343524950545f4f4c445f534f5554485f4152414249414e3a202253617262222c,
  0x20202020555343524950545f534155524153485452413a202253617572222c,
  0x20202020555343524950545f5349474e5f57524954494e473a202253676e77222c,
  0x20202020555343524950545f5348415649414e3a202253686177222c,
  0x20202020555343524950545f534841524144413a202253687264222c,
  0x20202020555343524950545f5349444448414d3a202253696464222c,
  0x20202020555343524950545f4b48554441574144493a202253696e64222c,
  0x20202020555343524950545f53494e48414c413a202253696e68222c,
  0x20202020555343524950545f534f474449414e3a2022536f6764222c,
  0x20202020555343524950545f4f4c445f534f474449414e3a2022536f676f222c,
  0x20202020555343524950545f534f52415f534f4d50454e473a2022536f7261222c,
  0x20202020555343524950545f534f594f4d424f3a2022536f796f222c,
  0x20202020555343524950545f53554e44414e4553453a202253756e64222c,
  0x20202020555343524950545f53594c4f54495f4e414752493a202253796c6f222c,
  0x20202020555343524950545f5359524941433a202253797263222c,
  0x20202020555343524950545f45535452414e47454c4f5f5359524941433a202253797265222c,
  0x20202020555343524950545f5745535445524e5f5359524941433a20225379726a222c,
  0x20202020555343524950545f4541535445524e5f5359524941433a20225379726e222c,
  0x20202020555343524950545f54414742414e57413a202254616762222c,
  0x20202020555343524950545f54414b52493a202254616b72222c,
  0x20202020555343524950545f5441495f4c453a202254616c65222c,
  0x20202020555343524950545f4e45575f5441495f4c55453a202254616c75222c,
  0x20202020555343524950545f54414d494c3a202254616d6c222c,
  0x20202020555343524950545f54414e4755543a202254616e67222c,
  0x20202020555343524950545f5441495f564945543a202254617674222c,
  0x20202020555343524950545f54454c5547553a202254656c75222c,
  0x20202020555343524950545f54454e475741523a202254656e67222c,
  0x20202020555343524950545f544946494e4147483a202254666e67222c,
  0x20202020555343524950545f544147414c4f473a202254676c67222c,
  0x20202020555343524950545f544841414e413a202254686161222c,
  0x20202020555343524950545f544841493a202254686169222c,
  0x20202020555343524950545f5449424554414e3a202254696274222c,
  0x20202020555343524950545f544952485554413a202254697268222c,
  0x20202020555343524950545f55474152495449433a202255676172222c,
  0x20202020555343524950545f5641493a202256616969222c,
  0x20202020555343524950545f56495349424c455f5350454543483a202256697370222c,
  0x20202020555343524950545f574152414e475f434954493a202257617261222c,
  0x20202020555343524950545f57414e43484f3a20225763686f222c,
  0x20202020555343524950545f574f4c4541493a2022576f6c65222c,
  0x20202020555343524950545f4f4c445f5045525349414e3a20225870656f222c,
  0x20202020555343524950545f43554e4549464f524d3a202258737578222c,
  0x20202020555343524950545f59455a4944493a202259657a69222c,
  0x20202020555343524950545f59493a202259696969222c,
  0x20202020555343524950545f5a414e4142415a41525f5351554152453a20225a616e62222c,
  0x20202020555343524950545f494e484552495445443a20225a696e68222c,
  0x20202020555343524950545f4d415448454d41544943414c5f4e4f544154494f4e3a20225a6d7468222c,
  0x20202020555343524950545f53594d424f4c535f454d4f4a493a20225a737965222c,
  0x20202020555343524950545f53594d424f4c533a20225a73796d222c,
  0x20202020555343524950545f554e5752495454454e5f4c414e4755414745533a20225a787878222c,
  0x20202020555343524950545f434f4d4d4f4e3a20225a797979222c,
  0x20202020555343524950545f554e4b4e4f574e3a20225a7a7a7a22,
  0x7d,
  0x0,
  0x766572746963616c4f7269656e746174696f6e4e616d6573203d207b,
  0x20202020555f564f5f524f54415445443a202252222c,
  0x20202020555f564f5f5452414e53464f524d45445f524f54415445443a20225472222c,
  0x20202020555f564f5f5452414e53464f524d45445f555052494748543a20225475222c,
  0x20202020555f564f5f555052494748543a20225522,
  0x7d,
  0x0,
  0x776f7264427265616b4e616d6573203d207b,
  0x20202020555f57425f43523a20224352222c,
  0x20202020555f57425f444f55424c455f51554f54453a20224451222c,
  0x20202020555f57425f455f424153453a20224542222c,
  0x20202020555f57425f455f424153455f47415a3a2022454247222c,
  0x20202020555f57425f455f4d4f4449464945523a2022454d222c,
  0x20202020555f57425f455854454e444e554d4c45543a20224558222c,
  0x20202020555f57425f455854454e443a2022457874656e64222c,
  0x20202020555f57425f464f524d41543a2022464f222c,
  0x20202020555f57425f474c55455f41465445525f5a574a3a202247415a222c,
  0x20202020555f57425f4845425245575f4c45545445523a2022484c222c,
  0x20202020555f57425f4b4154414b414e413a20224b41222c,
  0x20202020555f57425f414c45545445523a20224c45222c,
  0x20202020555f57425f4c463a20224c46222c,
  0x20202020555f57425f4d49444e554d4c45543a20224d42222c,
  0x20202020555f57425f4d49444c45545445523a20224d4c222c,
  0x20202020555f57425f4d49444e554d3a20224d4e222c,
  0x20202020555f57425f4e45574c494e453a20224e4c222c,
  0x20202020555f57425f4e554d455249433a20224e55222c,
  0x20202020555f57425f524547494f4e414c5f494e44494341544f523a20225249222c,
  0x20202020555f57425f53494e474c455f51554f54453a20225351222c,
  0x20202020555f57425f5753454753504143453a2022575365675370616365222c,
  0x20202020555f57425f4f544845523a20225858222c,
  0x20202020555f57425f5a574a3a20225a574a22,
  0x7d,
  0x0,
  0x0]

end Verif.Data.Text
