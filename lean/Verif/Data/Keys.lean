import Verif.Model.Names
/-!
# Names of constants

Generated by tools/gen_keys.py from the text of /repo. A name is written as a number, see
Model/Names.lean.
-/
namespace Verif.Data.Keys

/-- UnicodeData/UCDTypeDictionaries.py:10-34 the names of the keys of `bidiClassNames`: U_RIGHT_TO_LEFT_ARABIC, ... -/
def bidiClassNames : List Nat :=
 [0x4349424152415f5446454c5f4f545f54484749525f55,
  0x5245424d554e5f4349424152415f55,
  0x524f544152415045535f4b434f4c425f55,
  0x4c41525455454e5f595241444e554f425f55,
  0x524f544152415045535f5245424d554e5f4e4f4d4d4f435f55,
  0x5245424d554e5f4e4145504f5255455f55,
  0x524f544152415045535f5245424d554e5f4e4145504f5255455f55,
  0x524f54414e494d5245545f5245424d554e5f4e4145504f5255455f55,
  0x4554414c4f53495f474e4f5254535f54535249465f55,
  0x54484749525f4f545f5446454c5f55,
  0x474e49444445424d455f54484749525f4f545f5446454c5f55,
  0x4554414c4f53495f54484749525f4f545f5446454c5f55,
  0x454449525245564f5f54484749525f4f545f5446454c5f55,
  0x4b52414d5f474e49434150535f4e4f4e5f5249445f55,
  0x4c41525455454e5f524548544f5f55,
  0x54414d524f465f4c414e4f495443455249445f504f505f55,
  0x4554414c4f53495f4c414e4f495443455249445f504f505f55,
  0x5446454c5f4f545f54484749525f55,
  0x474e49444445424d455f5446454c5f4f545f54484749525f55,
  0x4554414c4f53495f5446454c5f4f545f54484749525f55,
  0x454449525245564f5f5446454c5f4f545f54484749525f55,
  0x524f544152415045535f544e454d4745535f55,
  0x4c41525455454e5f45434150535f45544948575f55]

/-- UnicodeData/UCDTypeDictionaries.py:36-346 the names of the keys of `blockNames`: UBLOCK_BASIC_LATIN, ... -/
def blockNames : List Nat :=
 [0x4e4954414c5f43495341425f4b434f4c4255,
  0x4d414c44415f4b434f4c4255,
  0x535245424d554e5f4e41454745415f4b434f4c4255,
  0x4d4f48415f4b434f4c4255,
  0x534c4f424d59535f4c4143494d4548434c415f4b434f4c4255,
  0x534d524f465f4e4f495441544e45534552505f43495445424148504c415f4b434f4c4255,
  0x534850594c474f524549485f4e41494c4f54414e415f4b434f4c4255,
  0x4e4f495441544f4e5f4c41434953554d5f4b454552475f544e4549434e415f4b434f4c4255,
  0x535245424d554e5f4b454552475f544e4549434e415f4b434f4c4255,
  0x534c4f424d59535f544e4549434e415f4b434f4c4255,
  0x4349424152415f4b434f4c4255,
  0x415f4445444e455458455f4349424152415f4b434f4c4255,
  0x534c4f424d59535f43495445424148504c415f4c41434954414d454854414d5f4349424152415f4b434f4c4255,
  0x415f534d524f465f4e4f495441544e45534552505f4349424152415f4b434f4c4255,
  0x425f534d524f465f4e4f495441544e45534552505f4349424152415f4b434f4c4255,
  0x544e454d454c505055535f4349424152415f4b434f4c4255,
  0x4e41494e454d52415f4b434f4c4255,
  0x53574f5252415f4b434f4c4255,
  0x4e4154534556415f4b434f4c4255,
  0x4553454e494c41425f4b434f4c4255,
  0x4d554d41425f4b434f4c4255,
  0x544e454d454c505055535f4d554d41425f4b434f4c4255,
  0x4841565f41535341425f4b434f4c4255,
  0x4b415441425f4b434f4c4255,
  0x494c41474e45425f4b434f4c4255,
  0x494b55534b494148425f4b434f4c4255,
  0x53544e454d454c455f4b434f4c425f4b434f4c4255,
  0x4f464f4d4f504f425f4b434f4c4255,
  0x4445444e455458455f4f464f4d4f504f425f4b434f4c4255,
  0x474e49574152445f584f425f4b434f4c4255,
  0x494d484152425f4b434f4c4255,
  0x534e5245545441505f454c4c494152425f4b434f4c4255,
  0x4553454e494755425f4b434f4c4255,
  0x44494855425f4b434f4c4255,
  0x534c4f424d59535f4c41434953554d5f454e49544e415a59425f4b434f4c4255,
  0x5348504152474f4544495f44454946494e555f4b4a435f4b434f4c4255,
  0x5954494c4942495441504d4f435f4b4a435f4b434f4c4255,
  0x534d524f465f5954494c4942495441504d4f435f4b4a435f4b434f4c4255,
  0x5348504152474f4544495f5954494c4942495441504d4f435f4b4a435f4b434f4c4255,
  0x544e454d454c505055535f5348504152474f4544495f5954494c4942495441504d4f435f4b4a435f4b434f4c4255,
  0x415f4e4f49534e455458455f5348504152474f4544495f44454946494e555f4b4a435f4b434f4c4255,
  0x425f4e4f49534e455458455f5348504152474f4544495f44454946494e555f4b4a435f4b434f4c4255,
  0x435f4e4f49534e455458455f5348504152474f4544495f44454946494e555f4b4a435f4b434f4c4255,
  0x445f4e4f49534e455458455f5348504152474f4544495f44454946494e555f4b4a435f4b434f4c4255,
  0x455f4e4f49534e455458455f5348504152474f4544495f44454946494e555f4b4a435f4b434f4c4255,
  0x465f4e4f49534e455458455f5348504152474f4544495f44454946494e555f4b4a435f4b434f4c4255,
  0x475f4e4f49534e455458455f5348504152474f4544495f44454946494e555f4b4a435f4b434f4c4255,
  0x544e454d454c505055535f534c4143494441525f4b4a435f4b434f4c4255,
  0x53454b4f5254535f4b4a435f4b434f4c4255,
  0x4e4f4954415554434e55505f444e415f534c4f424d59535f4b4a435f4b434f4c4255,
  0x4e41495241435f4b434f4c4255,
  0x4e41494e41424c415f4e41495341435541435f4b434f4c4255,
  0x414d4b4148435f4b434f4c4255,
  0x4d4148435f4b434f4c4255,
  0x45454b4f524548435f4b434f4c4255,
  0x544e454d454c505055535f45454b4f524548435f4b434f4c4255,
  0x534c4f424d59535f53534548435f4b434f4c4255,
  0x4e41494d5341524f48435f4b434f4c4255,
  0x4f4d414a5f5954494c4942495441504d4f435f4c55474e41485f4b434f4c4255,
  0x53455255544349505f4c4f52544e4f435f4b434f4c4255,
  0x434954504f435f4b434f4c4255,
  0x535245424d554e5f54434150455f434954504f435f4b434f4c4255,
  0x534c4152454d554e5f444f525f474e49544e554f435f4b434f4c4255,
  0x4d524f4649454e55435f4b434f4c4255,
  0x4e4f4954415554434e55505f444e415f535245424d554e5f4d524f4649454e55435f4b434f4c4255,
  0x534c4f424d59535f59434e45525255435f4b434f4c4255,
  0x59524142414c4c59535f544f49525059435f4b434f4c4255,
  0x43494c4c495259435f4b434f4c4255,
  0x415f4445444e455458455f43494c4c495259435f4b434f4c4255,
  0x425f4445444e455458455f43494c4c495259435f4b434f4c4255,
  0x435f4445444e455458455f43494c4c495259435f4b434f4c4255,
  0x544e454d454c505055535f43494c4c495259435f4b434f4c4255,
  0x544552455345445f4b434f4c4255,
  0x49524147414e415645445f4b434f4c4255,
  0x4445444e455458455f49524147414e415645445f4b434f4c4255,
  0x534b52414d5f4c414349544952434149445f474e494e49424d4f435f4b434f4c4255,
  0x4445444e455458455f534b52414d5f4c414349544952434149445f474e494e49424d4f435f4b434f4c4255,
  0x534c4f424d59535f524f465f534b52414d5f474e494e49424d4f435f4b434f4c4255,
  0x544e454d454c505055535f534b52414d5f4c414349544952434149445f474e494e49424d4f435f4b434f4c4255,
  0x53544142474e49445f4b434f4c4255,
  0x5552554b415f53455649445f4b434f4c4255,
  0x4152474f445f4b434f4c4255,
  0x53454c49545f4f4e494d4f445f4b434f4c4255,
  0x4e41594f4c5055445f4b434f4c4255,
  0x4d524f4649454e55435f43495453414e59445f594c5241455f4b434f4c4255,
  0x534c4f52544e4f435f54414d524f465f4850594c474f524549485f4e414954505947455f4b434f4c4255,
  0x534850594c474f524549485f4e414954505947455f4b434f4c4255,
  0x4e415341424c455f4b434f4c4255,
  0x4349414d594c455f4b434f4c4255,
  0x534e4f4349544f4d455f4b434f4c4255,
  0x53434952454d554e4148504c415f4445534f4c434e455f4b434f4c4255,
  0x544e454d454c505055535f434952454d554e4148504c415f4445534f4c434e455f4b434f4c4255,
  0x5348544e4f4d5f444e415f5352455454454c5f4b4a435f4445534f4c434e455f4b434f4c4255,
  0x544e454d454c505055535f434948504152474f4544495f4445534f4c434e455f4b434f4c4255,
  0x4349504f494854455f4b434f4c4255,
  0x4445444e455458455f4349504f494854455f4b434f4c4255,
  0x415f4445444e455458455f4349504f494854455f4b434f4c4255,
  0x544e454d454c505055535f4349504f494854455f4b434f4c4255,
  0x5345504148535f43495254454d4f45475f4b434f4c4255,
  0x4445444e455458455f5345504148535f43495254454d4f45475f4b434f4c4255,
  0x4e414947524f45475f4b434f4c4255,
  0x4445444e455458455f4e414947524f45475f4b434f4c4255,
  0x544e454d454c505055535f4e414947524f45475f4b434f4c4255,
  0x434954494c4f47414c475f4b434f4c4255,
  0x544e454d454c505055535f434954494c4f47414c475f4b434f4c4255,
  0x434948544f475f4b434f4c4255,
  0x4148544e4152475f4b434f4c4255,
  0x4b454552475f4b434f4c4255,
  0x4445444e455458455f4b454552475f4b434f4c4255,
  0x49544152414a55475f4b434f4c4255,
  0x49444e4f475f414c414a4e55475f4b434f4c4255,
  0x49484b554d5255475f4b434f4c4255,
  0x534d524f465f48544449574c4c55465f444e415f4854444957464c41485f4b434f4c4255,
  0x534b52414d5f464c41485f474e494e49424d4f435f4b434f4c4255,
  0x53454c42414c4c59535f4c55474e41485f4b434f4c4255,
  0x4159474e49484f525f4946494e41485f4b434f4c4255,
  0x4f4f4e554e41485f4b434f4c4255,
  0x4e41525441485f4b434f4c4255,
  0x5745524245485f4b434f4c4255,
  0x53455441474f525255535f4553555f455441564952505f484749485f4b434f4c4255,
  0x53455441474f525255535f484749485f4b434f4c4255,
  0x414e4147415249485f4b434f4c4255,
  0x535245544341524148435f4e4f4954504952435345445f434948504152474f4544495f4b434f4c4255,
  0x534e4f49534e455458455f4150495f4b434f4c4255,
  0x4e4f4954415554434e55505f444e415f534c4f424d59535f434948504152474f4544495f4b434f4c4255,
  0x4349414d4152415f4c41495245504d495f4b434f4c4255,
  0x534d524f465f5245424d554e5f4349444e495f4e4f4d4d4f435f4b434f4c4255,
  0x535245424d554e5f51415949535f4349444e495f4b434f4c4255,
  0x4956414c4841505f4c414e4f495450495243534e495f4b434f4c4255,
  0x4e414948545241505f4c414e4f495450495243534e495f4b434f4c4255,
  0x4f4d414a5f4c55474e41485f4b434f4c4255,
  0x415f4445444e455458455f4f4d414a5f4c55474e41485f4b434f4c4255,
  0x425f4445444e455458455f4f4d414a5f4c55474e41485f4b434f4c4255,
  0x4553454e4156414a5f4b434f4c4255,
  0x49485449414b5f4b434f4c4255,
  0x415f4445444e455458455f414e414b5f4b434f4c4255,
  0x544e454d454c505055535f414e414b5f4b434f4c4255,
  0x4e55424e414b5f4b434f4c4255,
  0x534c4143494441525f4958474e414b5f4b434f4c4255,
  0x4144414e4e414b5f4b434f4c4255,
  0x414e414b4154414b5f4b434f4c4255,
  0x534e4f49534e455458455f434954454e4f48505f414e414b4154414b5f4b434f4c4255,
  0x494c5f484159414b5f4b434f4c4255,
  0x49485448534f5241484b5f4b434f4c4255,
  0x5450495243535f4c4c414d535f4e415449484b5f4b434f4c4255,
  0x52454d484b5f4b434f4c4255,
  0x534c4f424d59535f52454d484b5f4b434f4c4255,
  0x494b4a4f484b5f4b434f4c4255,
  0x49444157414455484b5f4b434f4c4255,
  0x4f414c5f4b434f4c4255,
  0x544e454d454c505055535f315f4e4954414c5f4b434f4c4255,
  0x415f4445444e455458455f4e4954414c5f4b434f4c4255,
  0x4c414e4f4954494444415f4445444e455458455f4e4954414c5f4b434f4c4255,
  0x425f4445444e455458455f4e4954414c5f4b434f4c4255,
  0x435f4445444e455458455f4e4954414c5f4b434f4c4255,
  0x445f4445444e455458455f4e4954414c5f4b434f4c4255,
  0x455f4445444e455458455f4e4954414c5f4b434f4c4255,
  0x41484350454c5f4b434f4c4255,
  0x534c4f424d59535f454b494c52455454454c5f4b434f4c4255,
  0x55424d494c5f4b434f4c4255,
  0x415f5241454e494c5f4b434f4c4255,
  0x534d4152474f4544495f425f5241454e494c5f4b434f4c4255,
  0x59524142414c4c59535f425f5241454e494c5f4b434f4c4255,
  0x5553494c5f4b434f4c4255,
  0x544e454d454c505055535f5553494c5f4b434f4c4255,
  0x53455441474f525255535f574f4c5f4b434f4c4255,
  0x4e414943594c5f4b434f4c4255,
  0x4e414944594c5f4b434f4c4255,
  0x494e414a4148414d5f4b434f4c4255,
  0x53454c49545f474e4f4a48414d5f4b434f4c4255,
  0x524153414b414d5f4b434f4c4255,
  0x4d414c4159414c414d5f4b434f4c4255,
  0x434941444e414d5f4b434f4c4255,
  0x4e4145414843494e414d5f4b434f4c4255,
  0x4e45484352414d5f4b434f4c4255,
  0x49444e4f475f4d41524153414d5f4b434f4c4255,
  0x534c4f424d59535f434952454d554e4148504c415f4c41434954414d454854414d5f4b434f4c4255,
  0x53524f54415245504f5f4c41434954414d454854414d5f4b434f4c4255,
  0x534c4152454d554e5f4e4159414d5f4b434f4c4255,
  0x4e4952444941464544454d5f4b434f4c4255,
  0x4b4559414d5f49455445454d5f4b434f4c4255,
  0x534e4f49534e455458455f4b4559414d5f49455445454d5f4b434f4c4255,
  0x49554b414b494b5f45444e454d5f4b434f4c4255,
  0x455649535255435f434954494f52454d5f4b434f4c4255,
  0x534850594c474f524549485f434954494f52454d5f4b434f4c4255,
  0x4f41494d5f4b434f4c4255,
  0x53574f5252415f444e415f534c4f424d59535f53554f454e414c4c454353494d5f4b434f4c4255,
  0x415f534c4f424d59535f4c41434954414d454854414d5f53554f454e414c4c454353494d5f4b434f4c4255,
  0x425f534c4f424d59535f4c41434954414d454854414d5f53554f454e414c4c454353494d5f4b434f4c4255,
  0x5348504152474f544349505f444e415f534c4f424d59535f53554f454e414c4c454353494d5f4b434f4c4255,
  0x534c4f424d59535f53554f454e414c4c454353494d5f4b434f4c4255,
  0x4c4143494e484345545f53554f454e414c4c454353494d5f4b434f4c4255,
  0x49444f4d5f4b434f4c4255,
  0x5352455454454c5f5245494649444f4d5f474e49434150535f4b434f4c4255,
  0x5352455454454c5f454e4f545f5245494649444f4d5f4b434f4c4255,
  0x4e41494c4f474e4f4d5f4b434f4c4255,
  0x544e454d454c505055535f4e41494c4f474e4f4d5f4b434f4c4255,
  0x4f524d5f4b434f4c4255,
  0x494e41544c554d5f4b434f4c4255,
  0x534c4f424d59535f4c41434953554d5f4b434f4c4255,
  0x52414d4e41594d5f4b434f4c4255,
  0x415f4445444e455458455f52414d4e41594d5f4b434f4c4255,
  0x425f4445444e455458455f52414d4e41594d5f4b434f4c4255,
  0x4b434f4c425f4f4e5f4b434f4c4255,
  0x4f4b4e5f4b434f4c4255,
  0x4e414541544142414e5f4b434f4c4255,
  0x49524147414e49444e414e5f4b434f4c4255,
  0x45554c5f4941545f57454e5f4b434f4c4255,
  0x4157454e5f4b434f4c4255,
  0x534d524f465f5245424d554e5f4b434f4c4255,
  0x554853554e5f4b434f4c4255,
  0x474e4f4d485f455548434155505f474e454b4149594e5f4b434f4c4255,
  0x4e4f4954494e474f4345525f5245544341524148435f4c41434954504f5f4b434f4c4255,
  0x4d4148474f5f4b434f4c4255,
  0x494b4948435f4c4f5f4b434f4c4255,
  0x4e41495241474e55485f444c4f5f4b434f4c4255,
  0x43494c4154495f444c4f5f4b434f4c4255,
  0x4e4149424152415f4854524f4e5f444c4f5f4b434f4c4255,
  0x43494d5245505f444c4f5f4b434f4c4255,
  0x4e4149535245505f444c4f5f4b434f4c4255,
  0x4e414944474f535f444c4f5f4b434f4c4255,
  0x4e4149424152415f4854554f535f444c4f5f4b434f4c4255,
  0x43494b5255545f444c4f5f4b434f4c4255,
  0x415949524f5f4b434f4c4255,
  0x53544142474e49445f4c41544e454d414e524f5f4b434f4c4255,
  0x454741534f5f4b434f4c4255,
  0x41594e414d534f5f4b434f4c4255,
  0x535245424d554e5f51415949535f4e414d4f54544f5f4b434f4c4255,
  0x414552415f4553555f455441564952505f4b434f4c4255,
  0x474e4f4d485f4857414841505f4b434f4c4255,
  0x454e4552594d4c41505f4b434f4c4255,
  0x5541485f4e49435f5541505f4b434f4c4255,
  0x41505f53474148505f4b434f4c4255,
  0x435349445f534f5453494148505f4b434f4c4255,
  0x4e414943494e454f48505f4b434f4c4255,
  0x534e4f49534e455458455f434954454e4f48505f4b434f4c4255,
  0x544e454d454c505055535f534e4f49534e455458455f434954454e4f48505f4b434f4c4255,
  0x53445241435f474e4959414c505f4b434f4c4255,
  0x4956414c4841505f5245544c4153505f4b434f4c4255,
  0x4e4f4954415554434e55505f4c4152454e45475f4b434f4c4255,
  0x474e414a45525f4b434f4c4255,
  0x534c4f424d59535f4c4152454d554e5f494d55525f4b434f4c4255,
  0x43494e55525f4b434f4c4255,
  0x4e41544952414d41535f4b434f4c4255,
  0x415254485341525541535f4b434f4c4255,
  0x414441524148535f4b434f4c4255,
  0x4e4149564148535f4b434f4c4255,
  0x534c4f52544e4f435f54414d524f465f444e414854524f48535f4b434f4c4255,
  0x4d4148444449535f4b434f4c4255,
  0x414c41484e49535f4b434f4c4255,
  0x535245424d554e5f434941484352415f414c41484e49535f4b434f4c4255,
  0x53544e41495241565f4d524f465f4c4c414d535f4b434f4c4255,
  0x4e4f49534e455458455f414e414b5f4c4c414d535f4b434f4c4255,
  0x4e414944474f535f4b434f4c4255,
  0x474e45504d4f535f41524f535f4b434f4c4255,
  0x4f424d4f594f535f4b434f4c4255,
  0x534c4149434550535f4b434f4c4255,
  0x4553454e41444e55535f4b434f4c4255,
  0x544e454d454c505055535f4553454e41444e55535f4b434f4c4255,
  0x415f53574f5252415f4c41544e454d454c505055535f4b434f4c4255,
  0x425f53574f5252415f4c41544e454d454c505055535f4b434f4c4255,
  0x435f53574f5252415f4c41544e454d454c505055535f4b434f4c4255,
  0x53524f54415245504f5f4c41434954414d454854414d5f4c41544e454d454c505055535f4b434f4c4255,
  0x415f414552415f4553555f455441564952505f595241544e454d454c505055535f4b434f4c4255,
  0x425f414552415f4553555f455441564952505f595241544e454d454c505055535f4b434f4c4255,
  0x4e4f4954415554434e55505f4c41544e454d454c505055535f4b434f4c4255,
  0x5348504152474f544349505f444e415f534c4f424d59535f4c41544e454d454c505055535f4b434f4c4255,
  0x535450495243534255535f444e415f5354504952435352455055535f4b434f4c4255,
  0x474e49544952574e4749535f4e4f545455535f4b434f4c4255,
  0x495247414e5f49544f4c59535f4b434f4c4255,
  0x415f4445444e455458455f5348504152474f544349505f444e415f534c4f424d59535f4b434f4c4255,
  0x474e495455504d4f435f59434147454c5f524f465f534c4f424d59535f4b434f4c4255,
  0x4341495259535f4b434f4c4255,
  0x544e454d454c505055535f4341495259535f4b434f4c4255,
  0x474f4c414741545f4b434f4c4255,
  0x41574e41424741545f4b434f4c4255,
  0x534741545f4b434f4c4255,
  0x454c5f4941545f4b434f4c4255,
  0x4d4148545f4941545f4b434f4c4255,
  0x544549565f4941545f4b434f4c4255,
  0x534c4f424d59535f474e494a5f4e4155585f4941545f4b434f4c4255,
  0x49524b41545f4b434f4c4255,
  0x4c494d41545f4b434f4c4255,
  0x544e454d454c505055535f4c494d41545f4b434f4c4255,
  0x5455474e41545f4b434f4c4255,
  0x53544e454e4f504d4f435f5455474e41545f4b434f4c4255,
  0x544e454d454c505055535f5455474e41545f4b434f4c4255,
  0x5547554c45545f4b434f4c4255,
  0x414e414148545f4b434f4c4255,
  0x494148545f4b434f4c4255,
  0x4e4154454249545f4b434f4c4255,
  0x4847414e494649545f4b434f4c4255,
  0x415455485249545f4b434f4c4255,
  0x534c4f424d59535f50414d5f444e415f54524f50534e4152545f4b434f4c4255,
  0x53434942414c4c59535f4c414e494749524f42415f4e414944414e41435f44454946494e555f4b434f4c4255,
  0x4445444e455458455f53434942414c4c59535f4c414e494749524f42415f4e414944414e41435f44454946494e555f4b434f4c4255,
  0x43495449524147555f4b434f4c4255,
  0x53524f5443454c45535f4e4f495441495241565f4b434f4c4255,
  0x544e454d454c505055535f53524f5443454c45535f4e4f495441495241565f4b434f4c4255,
  0x4941565f4b434f4c4255,
  0x534e4f49534e455458455f43494445565f4b434f4c4255,
  0x534d524f465f4c414349545245565f4b434f4c4255,
  0x4f48434e41575f4b434f4c4255,
  0x495449435f474e415241575f4b434f4c4255,
  0x4944495a45595f4b434f4c4255,
  0x534c4143494441525f49595f4b434f4c4255,
  0x53454c42414c4c59535f49595f4b434f4c4255,
  0x534c4f424d59535f4d415247415845485f474e494a49595f4b434f4c4255,
  0x4552415551535f52415a4142414e415a5f4b434f4c4255]

/-- UnicodeData/UCDTypeDictionaries.py:348-367 the names of the keys of `decompositionTypeNames`: U_DT_CANONICAL, ... -/
def decompositionTypeNames : List Nat :=
 [0x4c4143494e4f4e41435f54445f55,
  0x5441504d4f435f54445f55,
  0x454c435249435f54445f55,
  0x4c414e49465f54445f55,
  0x544e4f465f54445f55,
  0x4e4f4954434152465f54445f55,
  0x4c414954494e495f54445f55,
  0x444554414c4f53495f54445f55,
  0x4c414944454d5f54445f55,
  0x574f5252414e5f54445f55,
  0x4b414552424f4e5f54445f55,
  0x454e4f4e5f54445f55,
  0x4c4c414d535f54445f55,
  0x4552415551535f54445f55,
  0x4255535f54445f55,
  0x52455055535f54445f55,
  0x4c414349545245565f54445f55,
  0x454449575f54445f55]

/-- UnicodeData/UCDTypeDictionaries.py:369-376 the names of the keys of `eastAsianWidthNames`: U_EA_AMBIGUOUS, ... -/
def eastAsianWidthNames : List Nat :=
 [0x53554f554749424d415f41455f55,
  0x48544449574c4c55465f41455f55,
  0x4854444957464c41485f41455f55,
  0x4c41525455454e5f41455f55,
  0x574f5252414e5f41455f55,
  0x454449575f41455f55]

/-- UnicodeData/UCDTypeDictionaries.py:378-409 the names of the keys of `generalCategoryNames`: U_CONTROL_CHAR, ... -/
def generalCategoryNames : List Nat :=
 [0x524148435f4c4f52544e4f435f55,
  0x524148435f54414d524f465f55,
  0x44454e47495353414e555f55,
  0x524148435f4553555f455441564952505f55,
  0x455441474f525255535f55,
  0x52455454454c5f455341435245574f4c5f55,
  0x52455454454c5f5245494649444f4d5f55,
  0x52455454454c5f524548544f5f55,
  0x52455454454c5f45534143454c5449545f55,
  0x52455454454c5f4553414352455050555f55,
  0x4b52414d5f474e49434150535f474e494e49424d4f435f55,
  0x4b52414d5f474e49534f4c434e455f55,
  0x4b52414d5f474e49434150535f4e4f4e5f55,
  0x5245424d554e5f54494749445f4c414d494345445f55,
  0x5245424d554e5f52455454454c5f55,
  0x5245424d554e5f524548544f5f55,
  0x4e4f4954415554434e55505f524f5443454e4e4f435f55,
  0x4e4f4954415554434e55505f485341445f55,
  0x4e4f4954415554434e55505f444e455f55,
  0x4e4f4954415554434e55505f4c414e49465f55,
  0x4e4f4954415554434e55505f4c414954494e495f55,
  0x4e4f4954415554434e55505f524548544f5f55,
  0x4e4f4954415554434e55505f54524154535f55,
  0x4c4f424d59535f59434e45525255435f55,
  0x4c4f424d59535f5245494649444f4d5f55,
  0x4c4f424d59535f4854414d5f55,
  0x4c4f424d59535f524548544f5f55,
  0x524f544152415045535f454e494c5f55,
  0x524f544152415045535f4850415247415241505f55,
  0x524f544152415045535f45434150535f55]

/-- UnicodeData/UCDTypeDictionaries.py:411-430 the names of the keys of `graphemeClusterBreakNames`: U_GCB_CONTROL, ... -/
def graphemeClusterBreakNames : List Nat :=
 [0x4c4f52544e4f435f4243475f55,
  0x52435f4243475f55,
  0x455341425f455f4243475f55,
  0x5a41475f455341425f455f4243475f55,
  0x5245494649444f4d5f455f4243475f55,
  0x444e455458455f4243475f55,
  0x4a575a5f52455446415f45554c475f4243475f55,
  0x4c5f4243475f55,
  0x464c5f4243475f55,
  0x564c5f4243475f55,
  0x54564c5f4243475f55,
  0x444e45504552505f4243475f55,
  0x524f54414349444e495f4c414e4f494745525f4243475f55,
  0x4b52414d5f474e49434150535f4243475f55,
  0x545f4243475f55,
  0x565f4243475f55,
  0x524548544f5f4243475f55,
  0x4a575a5f4243475f55]

/-- UnicodeData/UCDTypeDictionaries.py:432-439 the names of the keys of `hangulSyllableTypeNames`: U_HST_LEADING_JAMO, ... -/
def hangulSyllableTypeNames : List Nat :=
 [0x4f4d414a5f474e494441454c5f5453485f55,
  0x454c42414c4c59535f564c5f5453485f55,
  0x454c42414c4c59535f54564c5f5453485f55,
  0x454c424143494c5050415f544f4e5f5453485f55,
  0x4f4d414a5f474e494c494152545f5453485f55,
  0x4f4d414a5f4c45574f565f5453485f55]

/-- UnicodeData/UCDTypeDictionaries.py:441-458 the names of the keys of `indicPositionalCategoryNames`: U_INPC_BOTTOM, ... -/
def indicPositionalCategoryNames : List Nat :=
 [0x4d4f54544f425f43504e495f55,
  0x5446454c5f444e415f4d4f54544f425f43504e495f55,
  0x54484749525f444e415f4d4f54544f425f43504e495f55,
  0x5446454c5f43504e495f55,
  0x54484749525f444e415f5446454c5f43504e495f55,
  0x414e5f43504e495f55,
  0x4b43555254535245564f5f43504e495f55,
  0x54484749525f43504e495f55,
  0x504f545f43504e495f55,
  0x4d4f54544f425f444e415f504f545f43504e495f55,
  0x5446454c5f444e415f4d4f54544f425f444e415f504f545f43504e495f55,
  0x54484749525f444e415f4d4f54544f425f444e415f504f545f43504e495f55,
  0x5446454c5f444e415f504f545f43504e495f55,
  0x54484749525f444e415f5446454c5f444e415f504f545f43504e495f55,
  0x54484749525f444e415f504f545f43504e495f55,
  0x5446454c5f524544524f5f4c41555349565f43504e495f55]

/-- UnicodeData/UCDTypeDictionaries.py:460-497 the names of the keys of `indicSyllabicCategoryNames`: U_INSC_AVAGRAHA, ... -/
def indicSyllabicCategoryNames : List Nat :=
 [0x41484152474156415f43534e495f55,
  0x55444e49425f43534e495f55,
  0x5245424d554e5f474e494e494f4a5f494d484152425f43534e495f55,
  0x4b52414d5f4e4f4954414c4c49544e41435f43534e495f55,
  0x544e414e4f534e4f435f43534e495f55,
  0x444145445f544e414e4f534e4f435f43534e495f55,
  0x4c414e49465f544e414e4f534e4f435f43534e495f55,
  0x52455454454c5f444145485f544e414e4f534e4f435f43534e495f55,
  0x444558494654534f505f4c414954494e495f544e414e4f534e4f435f43534e495f55,
  0x52454c4c494b5f544e414e4f534e4f435f43534e495f55,
  0x4c414944454d5f544e414e4f534e4f435f43534e495f55,
  0x5245444c4f484543414c505f544e414e4f534e4f435f43534e495f55,
  0x41485045525f474e494445434552505f544e414e4f534e4f435f43534e495f55,
  0x44455849464552505f544e414e4f534e4f435f43534e495f55,
  0x44454e494f4a4255535f544e414e4f534e4f435f43534e495f55,
  0x41485045525f474e49444545434355535f544e414e4f534e4f435f43534e495f55,
  0x52454b434154535f485449575f544e414e4f534e4f435f43534e495f55,
  0x4b52414d5f4e4f4954414e494d45475f43534e495f55,
  0x52454b434154535f454c42495349564e495f43534e495f55,
  0x52454e494f4a5f43534e495f55,
  0x52455454454c5f474e49594649444f4d5f43534e495f55,
  0x52454e494f4a5f4e4f4e5f43534e495f55,
  0x41544b554e5f43534e495f55,
  0x5245424d554e5f43534e495f55,
  0x52454e494f4a5f5245424d554e5f43534e495f55,
  0x524548544f5f43534e495f55,
  0x52454c4c494b5f455255505f43534e495f55,
  0x524554464948535f52455453494745525f43534e495f55,
  0x5245494649444f4d5f454c42414c4c59535f43534e495f55,
  0x52455454454c5f454e4f545f43534e495f55,
  0x4b52414d5f454e4f545f43534e495f55,
  0x414d415249565f43534e495f55,
  0x414752415349565f43534e495f55,
  0x4c45574f565f43534e495f55,
  0x544e45444e455045445f4c45574f565f43534e495f55,
  0x544e45444e455045444e495f4c45574f565f43534e495f55]

/-- UnicodeData/UCDTypeDictionaries.py:499-602 the names of the keys of `joiningGroupNames`: U_JG_AFRICAN_FEH, ... -/
def joiningGroupNames : List Nat :=
 [0x4845465f4e4143495246415f474a5f55,
  0x4e4f4f4e5f4e4143495246415f474a5f55,
  0x4641515f4e4143495246415f474a5f55,
  0x4e49415f474a5f55,
  0x4850414c415f474a5f55,
  0x46454c415f474a5f55,
  0x4845425f474a5f55,
  0x485445425f474a5f55,
  0x4545525241425f4845595f494b53414853555255425f474a5f55,
  0x4c41445f474a5f55,
  0x485349525f4854414c41445f474a5f55,
  0x455f474a5f55,
  0x4845595f49535241465f474a5f55,
  0x45465f474a5f55,
  0x4845465f474a5f55,
  0x4854414b4d45535f4c414e49465f474a5f55,
  0x4641475f474a5f55,
  0x4c414d41475f474a5f55,
  0x4841485f474a5f55,
  0x41595f414e4e494b5f4159474e49484f525f4946494e41485f474a5f55,
  0x41505f4159474e49484f525f4946494e41485f474a5f55,
  0x45485f474a5f55,
  0x4845485f474a5f55,
  0x4c414f475f4845485f474a5f55,
  0x485445485f474a5f55,
  0x46414b5f474a5f55,
  0x4850414b5f474a5f55,
  0x485041484b5f474a5f55,
  0x4845485f444554544f4e4b5f474a5f55,
  0x4d414c5f474a5f55,
  0x4844414d414c5f474a5f55,
  0x4148425f4d414c4159414c414d5f474a5f55,
  0x414a5f4d414c4159414c414d5f474a5f55,
  0x414c4c5f4d414c4159414c414d5f474a5f55,
  0x414c4c4c5f4d414c4159414c414d5f474a5f55,
  0x41474e5f4d414c4159414c414d5f474a5f55,
  0x414e4e5f4d414c4159414c414d5f474a5f55,
  0x414e4e4e5f4d414c4159414c414d5f474a5f55,
  0x41594e5f4d414c4159414c414d5f474a5f55,
  0x41525f4d414c4159414c414d5f474a5f55,
  0x4153535f4d414c4159414c414d5f474a5f55,
  0x4154545f4d414c4159414c414d5f474a5f55,
  0x4850454c415f4e4145414843494e414d5f474a5f55,
  0x4e4959415f4e4145414843494e414d5f474a5f55,
  0x485445425f4e4145414843494e414d5f474a5f55,
  0x4854454c41445f4e4145414843494e414d5f474a5f55,
  0x4844454d4148445f4e4145414843494e414d5f474a5f55,
  0x455649465f4e4145414843494e414d5f474a5f55,
  0x4c454d49475f4e4145414843494e414d5f474a5f55,
  0x485445485f4e4145414843494e414d5f474a5f55,
  0x444552444e55485f4e4145414843494e414d5f474a5f55,
  0x4850414b5f4e4145414843494e414d5f474a5f55,
  0x4844454d414c5f4e4145414843494e414d5f474a5f55,
  0x4d454d5f4e4145414843494e414d5f474a5f55,
  0x4e554e5f4e4145414843494e414d5f474a5f55,
  0x454e4f5f4e4145414843494e414d5f474a5f55,
  0x45505f4e4145414843494e414d5f474a5f55,
  0x48504f515f4e4145414843494e414d5f474a5f55,
  0x485345525f4e4145414843494e414d5f474a5f55,
  0x45484441535f4e4145414843494e414d5f474a5f55,
  0x484b454d41535f4e4145414843494e414d5f474a5f55,
  0x5741545f4e4145414843494e414d5f474a5f55,
  0x4e45545f4e4145414843494e414d5f474a5f55,
  0x485445545f4e4145414843494e414d5f474a5f55,
  0x4844454d4148545f4e4145414843494e414d5f474a5f55,
  0x59544e4557545f4e4145414843494e414d5f474a5f55,
  0x5741575f4e4145414843494e414d5f474a5f55,
  0x48444f595f4e4145414843494e414d5f474a5f55,
  0x4e4959415a5f4e4145414843494e414d5f474a5f55,
  0x4d45454d5f474a5f55,
  0x4d494d5f474a5f55,
  0x50554f52475f474e494e494f4a5f4f4e5f474a5f55,
  0x4e4f4f4e5f474a5f55,
  0x4e554e5f474a5f55,
  0x41594e5f474a5f55,
  0x45505f474a5f55,
  0x4641515f474a5f55,
  0x485041515f474a5f55,
  0x4845525f474a5f55,
  0x45505f44455352455645525f474a5f55,
  0x4845595f4159474e49484f525f474a5f55,
  0x4441535f474a5f55,
  0x45484441535f474a5f55,
  0x4e4545535f474a5f55,
  0x4854414b4d45535f474a5f55,
  0x4e4948535f474a5f55,
  0x5741575f54484749415254535f474a5f55,
  0x46414b5f48534157535f474a5f55,
  0x5741575f4341495259535f474a5f55,
  0x4841545f474a5f55,
  0x5741545f474a5f55,
  0x4154554252414d5f4845545f474a5f55,
  0x4c414f475f4845485f4e4f5f415a4d41485f474a5f55,
  0x485445545f474a5f55,
  0x5741575f474a5f55,
  0x4845595f474a5f55,
  0x4545525241425f4845595f474a5f55,
  0x4c4941545f485449575f4845595f474a5f55,
  0x484455595f474a5f55,
  0x45485f484455595f474a5f55,
  0x4e49415a5f474a5f55,
  0x4e4941485a5f474a5f55]

/-- UnicodeData/UCDTypeDictionaries.py:604-611 the names of the keys of `joiningTypeNames`: U_JT_JOIN_CAUSING, ... -/
def joiningTypeNames : List Nat :=
 [0x474e49535541435f4e494f4a5f544a5f55,
  0x474e494e494f4a5f4c4155445f544a5f55,
  0x474e494e494f4a5f5446454c5f544a5f55,
  0x474e494e494f4a5f54484749525f544a5f55,
  0x544e45524150534e4152545f544a5f55,
  0x474e494e494f4a5f4e4f4e5f544a5f55]

/-- UnicodeData/UCDTypeDictionaries.py:613-657 the names of the keys of `lineBreakNames`: U_LB_AMBIGUOUS, ... -/
def lineBreakNames : List Nat :=
 [0x53554f554749424d415f424c5f55,
  0x43495445424148504c415f424c5f55,
  0x48544f425f4b414552425f424c5f55,
  0x52455446415f4b414552425f424c5f55,
  0x45524f4645425f4b414552425f424c5f55,
  0x4b414552425f59524f5441444e414d5f424c5f55,
  0x4b414552425f544e45474e49544e4f435f424c5f55,
  0x524554524154535f4553454e4150414a5f4c414e4f495449444e4f435f424c5f55,
  0x4e4f4954415554434e55505f45534f4c435f424c5f55,
  0x4b52414d5f474e494e49424d4f435f424c5f55,
  0x5349534548544e455241505f45534f4c435f424c5f55,
  0x4e52555445525f45474149525241435f424c5f55,
  0x455341425f455f424c5f55,
  0x5245494649444f4d5f455f424c5f55,
  0x4e4f4954414d414c4358455f424c5f55,
  0x45554c475f424c5f55,
  0x32485f424c5f55,
  0x33485f424c5f55,
  0x52455454454c5f5745524245485f424c5f55,
  0x4e45485059485f424c5f55,
  0x434948504152474f4544495f424c5f55,
  0x454c424152415045534e495f424c5f55,
  0x434952454d554e5f5849464e495f424c5f55,
  0x4c4a5f424c5f55,
  0x544a5f424c5f55,
  0x564a5f424c5f55,
  0x444545465f454e494c5f424c5f55,
  0x454e494c5f5458454e5f424c5f55,
  0x524554524154534e4f4e5f424c5f55,
  0x434952454d554e5f424c5f55,
  0x4e4f4954415554434e55505f4e45504f5f424c5f55,
  0x434952454d554e5f58494654534f505f424c5f55,
  0x434952454d554e5f5849464552505f424c5f55,
  0x4e4f495441544f55515f424c5f55,
  0x524f54414349444e495f4c414e4f494745525f424c5f55,
  0x545845544e4f435f58454c504d4f435f424c5f55,
  0x455441474f525255535f424c5f55,
  0x45434150535f424c5f55,
  0x534c4f424d59535f4b414552425f424c5f55,
  0x52454e494f4a5f44524f575f424c5f55,
  0x4e574f4e4b4e555f424c5f55,
  0x4543415053575a5f424c5f55,
  0x4a575a5f424c5f55]

/-- UnicodeData/UCDTypeDictionaries.py:659-664 the names of the keys of `numberTypeNames`: U_NT_DECIMAL, ... -/
def numberTypeNames : List Nat :=
 [0x4c414d494345445f544e5f55,
  0x54494749445f544e5f55,
  0x454e4f4e5f544e5f55,
  0x434952454d554e5f544e5f55]

/-- UnicodeData/UCDTypeDictionaries.py:666-682 the names of the keys of `sentenceBreakNames`: U_SB_ATERM, ... -/
def sentenceBreakNames : List Nat :=
 [0x4d524554415f42535f55,
  0x45534f4c435f42535f55,
  0x52435f42535f55,
  0x444e455458455f42535f55,
  0x54414d524f465f42535f55,
  0x52455454454c4f5f42535f55,
  0x464c5f42535f55,
  0x5245574f4c5f42535f55,
  0x434952454d554e5f42535f55,
  0x45554e49544e4f43535f42535f55,
  0x5045535f42535f55,
  0x50535f42535f55,
  0x4d524554535f42535f55,
  0x52455050555f42535f55,
  0x524548544f5f42535f55]

/-- UnicodeData/UCDTypeDictionaries.py:684-878 the names of the keys of `scriptNames`: USCRIPT_ADLAM, ... -/
def scriptNames : List Nat :=
 [0x4d414c44415f54504952435355,
  0x414b4146415f54504952435355,
  0x4e41494e41424c415f4e41495341435541435f54504952435355,
  0x4d4f48415f54504952435355,
  0x4349424152415f54504952435355,
  0x4349414d4152415f4c41495245504d495f54504952435355,
  0x4e41494e454d52415f54504952435355,
  0x4e4154534556415f54504952435355,
  0x4553454e494c41425f54504952435355,
  0x4d554d41425f54504952435355,
  0x4841565f41535341425f54504952435355,
  0x4b415441425f54504952435355,
  0x494c41474e45425f54504952435355,
  0x494b55534b494148425f54504952435355,
  0x534c4f424d595353494c425f54504952435355,
  0x4f464f4d4f504f425f54504952435355,
  0x494d484152425f54504952435355,
  0x454c4c494152425f54504952435355,
  0x4553454e494755425f54504952435355,
  0x44494855425f54504952435355,
  0x414d4b4148435f54504952435355,
  0x4c414e494749524f42415f4e414944414e41435f54504952435355,
  0x4e41495241435f54504952435355,
  0x4d4148435f54504952435355,
  0x45454b4f524548435f54504952435355,
  0x4e41494d5341524f48435f54504952435355,
  0x48545249435f54504952435355,
  0x434954504f435f54504952435355,
  0x544f49525059435f54504952435355,
  0x43494c4c495259435f54504952435355,
  0x43494c4c495259435f43494e4f56414c535f4843525548435f444c4f5f54504952435355,
  0x49524147414e415645445f54504952435355,
  0x5552554b415f53455649445f54504952435355,
  0x4152474f445f54504952435355,
  0x544552455345445f54504952435355,
  0x4e41594f4c5055445f54504952435355,
  0x4e414954505947455f4349544f4d45445f54504952435355,
  0x4e414954505947455f43495441524549485f54504952435355,
  0x534850594c474f524549485f4e414954505947455f54504952435355,
  0x4e415341424c455f54504952435355,
  0x4349414d594c455f54504952435355,
  0x4349504f494854455f54504952435355,
  0x495255535455484b5f54504952435355,
  0x4e414947524f45475f54504952435355,
  0x434954494c4f47414c475f54504952435355,
  0x49444e4f475f414c414a4e55475f54504952435355,
  0x49444e4f475f4d41524153414d5f54504952435355,
  0x434948544f475f54504952435355,
  0x4148544e4152475f54504952435355,
  0x4b454552475f54504952435355,
  0x49544152414a55475f54504952435355,
  0x49484b554d5255475f54504952435355,
  0x4f464f4d4f504f425f485449575f4e41485f54504952435355,
  0x4c55474e41485f54504952435355,
  0x4e41485f54504952435355,
  0x4f4f4e554e41485f54504952435355,
  0x4e41485f44454946494c504d49535f54504952435355,
  0x4e41485f4c414e4f495449444152545f54504952435355,
  0x4e41525441485f54504952435355,
  0x5745524245485f54504952435355,
  0x414e4147415249485f54504952435355,
  0x534850594c474f524549485f4e41494c4f54414e415f54504952435355,
  0x474e4f4d485f4857414841505f54504952435355,
  0x474e4f4d485f455548434155505f474e454b4149594e5f54504952435355,
  0x414e4147415249485f524f5f414e414b4154414b5f54504952435355,
  0x4e41495241474e55485f444c4f5f54504952435355,
  0x5355444e495f4e415050415241485f54504952435355,
  0x43494c4154495f444c4f5f54504952435355,
  0x4f4d414a5f54504952435355,
  0x4553454e4156414a5f54504952435355,
  0x4553454e4150414a5f54504952435355,
  0x4e45484352554a5f54504952435355,
  0x494c5f484159414b5f54504952435355,
  0x414e414b4154414b5f54504952435355,
  0x49485448534f5241484b5f54504952435355,
  0x52454d484b5f54504952435355,
  0x494b4a4f484b5f54504952435355,
  0x5450495243535f4c4c414d535f4e415449484b5f54504952435355,
  0x4144414e4e414b5f54504952435355,
  0x4e4145524f4b5f54504952435355,
  0x454c4c45504b5f54504952435355,
  0x49485449414b5f54504952435355,
  0x414e4e414c5f54504952435355,
  0x4f414c5f54504952435355,
  0x5255544b4152465f4e4954414c5f54504952435355,
  0x43494c4541475f4e4954414c5f54504952435355,
  0x4e4954414c5f54504952435355,
  0x41484350454c5f54504952435355,
  0x55424d494c5f54504952435355,
  0x415f5241454e494c5f54504952435355,
  0x425f5241454e494c5f54504952435355,
  0x5553494c5f54504952435355,
  0x414d4f4c5f54504952435355,
  0x4e414943594c5f54504952435355,
  0x4e414944594c5f54504952435355,
  0x494e414a4148414d5f54504952435355,
  0x524153414b414d5f54504952435355,
  0x434941444e414d5f54504952435355,
  0x4e4145414843494e414d5f54504952435355,
  0x4e45484352414d5f54504952435355,
  0x534850594c474f524549485f4e4159414d5f54504952435355,
  0x4e4952444941464544454d5f54504952435355,
  0x45444e454d5f54504952435355,
  0x455649535255435f434954494f52454d5f54504952435355,
  0x534850594c474f524549485f434954494f52454d5f54504952435355,
  0x4d414c4159414c414d5f54504952435355,
  0x49444f4d5f54504952435355,
  0x4e41494c4f474e4f4d5f54504952435355,
  0x4e4f4f4d5f54504952435355,
  0x4f524d5f54504952435355,
  0x4b4559414d5f49455449454d5f54504952435355,
  0x494e41544c554d5f54504952435355,
  0x52414d4e41594d5f54504952435355,
  0x49524147414e49444e414e5f54504952435355,
  0x4e4149424152415f4854524f4e5f444c4f5f54504952435355,
  0x4e414541544142414e5f54504952435355,
  0x4157454e5f54504952435355,
  0x414245475f49484b414e5f54504952435355,
  0x4f4b4e5f54504952435355,
  0x554853554e5f54504952435355,
  0x4d4148474f5f54504952435355,
  0x494b4948435f4c4f5f54504952435355,
  0x4e4f484b524f5f54504952435355,
  0x415949524f5f54504952435355,
  0x454741534f5f54504952435355,
  0x41594e414d534f5f54504952435355,
  0x454e4552594d4c41505f54504952435355,
  0x5541485f4e49435f5541505f54504952435355,
  0x43494d5245505f444c4f5f54504952435355,
  0x41505f53474148505f54504952435355,
  0x4956414c4841505f4c414e4f495450495243534e495f54504952435355,
  0x4956414c4841505f5245544c4153505f54504952435355,
  0x4956414c4841505f4b4f4f425f54504952435355,
  0x4e414943494e454f48505f54504952435355,
  0x4f41494d5f54504952435355,
  0x4e414948545241505f4c414e4f495450495243534e495f54504952435355,
  0x474e414a45525f54504952435355,
  0x4159474e49484f525f4946494e41485f54504952435355,
  0x4f474e4f524f474e4f525f54504952435355,
  0x43494e55525f54504952435355,
  0x4e41544952414d41535f54504952435355,
  0x4954415241535f54504952435355,
  0x4e4149424152415f4854554f535f444c4f5f54504952435355,
  0x415254485341525541535f54504952435355,
  0x474e49544952575f4e4749535f54504952435355,
  0x4e4149564148535f54504952435355,
  0x414441524148535f54504952435355,
  0x4d4148444449535f54504952435355,
  0x49444157414455484b5f54504952435355,
  0x414c41484e49535f54504952435355,
  0x4e414944474f535f54504952435355,
  0x4e414944474f535f444c4f5f54504952435355,
  0x474e45504d4f535f41524f535f54504952435355,
  0x4f424d4f594f535f54504952435355,
  0x4553454e41444e55535f54504952435355,
  0x495247414e5f49544f4c59535f54504952435355,
  0x4341495259535f54504952435355,
  0x4341495259535f4f4c45474e41525453455f54504952435355,
  0x4341495259535f4e5245545345575f54504952435355,
  0x4341495259535f4e5245545341455f54504952435355,
  0x41574e41424741545f54504952435355,
  0x49524b41545f54504952435355,
  0x454c5f4941545f54504952435355,
  0x45554c5f4941545f57454e5f54504952435355,
  0x4c494d41545f54504952435355,
  0x5455474e41545f54504952435355,
  0x544549565f4941545f54504952435355,
  0x5547554c45545f54504952435355,
  0x524157474e45545f54504952435355,
  0x4847414e494649545f54504952435355,
  0x474f4c414741545f54504952435355,
  0x414e414148545f54504952435355,
  0x494148545f54504952435355,
  0x4e4154454249545f54504952435355,
  0x415455485249545f54504952435355,
  0x43495449524147555f54504952435355,
  0x4941565f54504952435355,
  0x4843454550535f454c42495349565f54504952435355,
  0x495449435f474e415241575f54504952435355,
  0x4f48434e41575f54504952435355,
  0x4941454c4f575f54504952435355,
  0x4e4149535245505f444c4f5f54504952435355,
  0x4d524f4649454e55435f54504952435355,
  0x4944495a45595f54504952435355,
  0x49595f54504952435355,
  0x4552415551535f52415a4142414e415a5f54504952435355,
  0x444554495245484e495f54504952435355,
  0x4e4f495441544f4e5f4c41434954414d454854414d5f54504952435355,
  0x494a4f4d455f534c4f424d59535f54504952435355,
  0x534c4f424d59535f54504952435355,
  0x5345474155474e414c5f4e4554544952574e555f54504952435355,
  0x4e4f4d4d4f435f54504952435355,
  0x4e574f4e4b4e555f54504952435355]

/-- UnicodeData/UCDTypeDictionaries.py:880-885 the names of the keys of `verticalOrientationNames`: U_VO_ROTATED, ... -/
def verticalOrientationNames : List Nat :=
 [0x44455441544f525f4f565f55,
  0x44455441544f525f44454d524f46534e4152545f4f565f55,
  0x544847495250555f44454d524f46534e4152545f4f565f55,
  0x544847495250555f4f565f55]

/-- UnicodeData/UCDTypeDictionaries.py:887-911 the names of the keys of `wordBreakNames`: U_WB_CR, ... -/
def wordBreakNames : List Nat :=
 [0x52435f42575f55,
  0x45544f55515f454c42554f445f42575f55,
  0x455341425f455f42575f55,
  0x5a41475f455341425f455f42575f55,
  0x5245494649444f4d5f455f42575f55,
  0x54454c4d554e444e455458455f42575f55,
  0x444e455458455f42575f55,
  0x54414d524f465f42575f55,
  0x4a575a5f52455446415f45554c475f42575f55,
  0x52455454454c5f5745524245485f42575f55,
  0x414e414b4154414b5f42575f55,
  0x52455454454c415f42575f55,
  0x464c5f42575f55,
  0x54454c4d554e44494d5f42575f55,
  0x52455454454c44494d5f42575f55,
  0x4d554e44494d5f42575f55,
  0x454e494c57454e5f42575f55,
  0x434952454d554e5f42575f55,
  0x524f54414349444e495f4c414e4f494745525f42575f55,
  0x45544f55515f454c474e49535f42575f55,
  0x4543415053474553575f42575f55,
  0x524548544f5f42575f55,
  0x4a575a5f42575f55]

/-- UnicodeData/UCDTypeDictionaries.py: its dictionaries with the names of their keys, in the order of the file. -/
def dictionaries : List (Str × List Nat) :=
 [(txt "bidiClassNames", bidiClassNames),
  (txt "blockNames", blockNames),
  (txt "decompositionTypeNames", decompositionTypeNames),
  (txt "eastAsianWidthNames", eastAsianWidthNames),
  (txt "generalCategoryNames", generalCategoryNames),
  (txt "graphemeClusterBreakNames", graphemeClusterBreakNames),
  (txt "hangulSyllableTypeNames", hangulSyllableTypeNames),
  (txt "indicPositionalCategoryNames", indicPositionalCategoryNames),
  (txt "indicSyllabicCategoryNames", indicSyllabicCategoryNames),
  (txt "joiningGroupNames", joiningGroupNames),
  (txt "joiningTypeNames", joiningTypeNames),
  (txt "lineBreakNames", lineBreakNames),
  (txt "numberTypeNames", numberTypeNames),
  (txt "sentenceBreakNames", sentenceBreakNames),
  (txt "scriptNames", scriptNames),
  (txt "verticalOrientationNames", verticalOrientationNames),
  (txt "wordBreakNames", wordBreakNames)]

/-- UnicodeData/uchar_h.py: the names of the constants it assigns. -/
def charHeader : NameTree :=
 (.node (.node (.node (.node (.node (.node (.node (.node (.node (.node .leaf 0x455f474a5f55 .leaf)
  0x32485f424c5f55 (.node .leaf 0x33485f424c5f55 .leaf))
  0x45465f474a5f55 (.node (.node .leaf 0x45485f474a5f55 .leaf)
  0x45505f474a5f55 .leaf))
  0x464c5f42535f55 (.node (.node (.node .leaf 0x464c5f42575f55 .leaf)
  0x4c4a5f424c5f55 .leaf)
  0x4c5f4243475f55 (.node (.node .leaf 0x50535f42535f55 .leaf)
  0x52435f42535f55 .leaf)))
  0x52435f42575f55 (.node (.node (.node (.node .leaf 0x544a5f424c5f55 .leaf)
  0x545f4243475f55 (.node .leaf 0x564a5f424c5f55 .leaf))
  0x565f4243475f55 (.node (.node .leaf 0x41594e5f474a5f55 .leaf)
  0x4255535f54445f55 .leaf))
  0x4441535f474a5f55 (.node (.node (.node .leaf 0x4641475f474a5f55 .leaf)
  0x46414b5f474a5f55 .leaf)
  0x4641515f474a5f55 (.node (.node .leaf 0x464c5f4243475f55 .leaf)
  0x4841485f474a5f55 .leaf))))
  0x4841545f474a5f55 (.node (.node (.node (.node (.node .leaf 0x4845425f474a5f55 .leaf)
  0x4845465f474a5f55 (.node .leaf 0x4845485f474a5f55 .leaf))
  0x4845525f474a5f55 (.node (.node .leaf 0x4845595f474a5f55 .leaf)
  0x4a575a5f424c5f55 .leaf))
  0x4a575a5f42575f55 (.node (.node (.node .leaf 0x4c41445f474a5f55 .leaf)
  0x4d414c5f474a5f55 .leaf)
  0x4d494d5f474a5f55 (.node (.node .leaf 0x4e49415f474a5f55 .leaf)
  0x4e554e5f474a5f55 .leaf)))
  0x5045535f42535f55 (.node (.node (.node (.node .leaf 0x52435f4243475f55 .leaf)
  0x564c5f4243475f55 (.node .leaf 0x5741545f474a5f55 .leaf))
  0x5741575f474a5f55 (.node (.node .leaf 0x414e5f43504e495f55 .leaf)
  0x454449575f41455f55 .leaf))
  0x454449575f54445f55 (.node (.node (.node .leaf 0x4547415f5241484355 .leaf)
  0x454e4f4e5f54445f55 .leaf)
  0x454e4f4e5f544e5f55 (.node (.node .leaf 0x45554c475f424c5f55 .leaf)
  0x46454c415f474a5f55 .leaf)))))
  0x484455595f474a5f55 (.node (.node (.node (.node (.node (.node .leaf 0x4850414b5f474a5f55 .leaf)
  0x485041515f474a5f55 (.node .leaf 0x485445425f474a5f55 .leaf))
  0x485445485f474a5f55 (.node (.node .leaf 0x485445545f474a5f55 .leaf)
  0x4a575a5f4243475f55 .leaf))
  0x4d45454d5f474a5f55 (.node (.node (.node .leaf 0x4e4545535f474a5f55 .leaf)
  0x4e49415a5f474a5f55 .leaf)
  0x4e4948535f474a5f55 (.node (.node .leaf 0x4e4f4f4e5f474a5f55 .leaf)
  0x544e4f465f54445f55 .leaf)))
  0x54564c5f4243475f55 (.node (.node (.node (.node .leaf 0x45434150535f424c5f55 .leaf)
  0x45484441535f474a5f55 (.node .leaf 0x454d414e5f5241484355 .leaf))
  0x454e4f4e5f5450425f55 (.node (.node .leaf 0x45534f4c435f42535f55 .leaf)
  0x485041484b5f474a5f55 .leaf))
  0x4850414c415f474a5f55 (.node (.node (.node .leaf 0x485341445f5241484355 .leaf)
  0x4854414d5f5241484355 .leaf)
  0x4941565f4b434f4c4255 (.node (.node .leaf 0x4c414d41475f474a5f55 .leaf)
  0x4c414e49465f54445f55 .leaf))))
  0x4c4c414d535f54445f55 (.node (.node (.node (.node (.node .leaf 0x4d524554415f42535f55 .leaf)
  0x4d524554535f42535f55 (.node .leaf 0x4e45504f5f5450425f55 .leaf))
  0x4e4941485a5f474a5f55 (.node (.node .leaf 0x4f414c5f4b434f4c4255 .leaf)
  0x4f4b4e5f4b434f4c4255 .leaf))
  0x4f524d5f4b434f4c4255 (.node (.node (.node .leaf 0x504f545f43504e495f55 .leaf)
  0x524548544f5f42535f55 .leaf)
  0x524548544f5f42575f55 (.node (.node .leaf 0x52455050555f42535f55 .leaf)
  0x52455055535f54445f55 .leaf)))
  0x5245574f4c5f42535f55 (.node (.node (.node (.node .leaf 0x54494749445f544e5f55 .leaf)
  0x4157454e5f4b434f4c4255 (.node .leaf 0x44455341435f5241484355 .leaf))
  0x444e455458455f42535f55 (.node (.node .leaf 0x444e455458455f42575f55 .leaf)
  0x454c435249435f54445f55 .leaf))
  0x4552415551535f54445f55 (.node (.node (.node .leaf 0x455341425f455f424c5f55 .leaf)
  0x455341425f455f42575f55 .leaf)
  0x45534f4c435f5450425f55 (.node (.node .leaf 0x455441474f525255535f55 .leaf)
  0x4844414d414c5f474a5f55 .leaf))))))
  0x494148545f4b434f4c4255 (.node (.node (.node (.node (.node (.node (.node .leaf 0x49444f4d5f4b434f4c4255 .leaf)
  0x494a4f4d455f5241484355 (.node .leaf 0x4b434f4c425f5241484355 .leaf))
  0x4b53414d5f435f43475f55 (.node (.node .leaf 0x4b53414d5f4c5f43475f55 .leaf)
  0x4b53414d5f4d5f43475f55 .leaf))
  0x4b53414d5f4e5f43475f55 (.node (.node (.node .leaf 0x4b53414d5f505f43475f55 .leaf)
  0x4b53414d5f535f43475f55 .leaf)
  0x4b53414d5f5a5f43475f55 (.node (.node .leaf 0x4c414944454d5f54445f55 .leaf)
  0x4d4148435f4b434f4c4255 .leaf)))
  0x4d4f48415f4b434f4c4255 (.node (.node (.node (.node .leaf 0x4d554e44494d5f42575f55 .leaf)
  0x4e45485059485f424c5f55 (.node .leaf 0x4f41494d5f4b434f4c4255 .leaf))
  0x524548544f5f4243475f55 (.node (.node .leaf 0x534741545f4b434f4c4255 .leaf)
  0x54414d524f465f42535f55 .leaf))
  0x54414d524f465f42575f55 (.node (.node (.node .leaf 0x5441504d4f435f54445f55 .leaf)
  0x5446454c5f43504e495f55 .leaf)
  0x5553494c5f4b434f4c4255 (.node (.node .leaf 0x574f5252414e5f41455f55 .leaf)
  0x574f5252414e5f54445f55 .leaf))))
  0x4152474f445f4b434f4c4255 (.node (.node (.node (.node (.node .leaf 0x41544b554e5f43534e495f55 .leaf)
  0x415949524f5f4b434f4c4255 (.node .leaf 0x43494e55525f4b434f4c4255 .leaf))
  0x434952454d554e5f424c5f55 (.node (.node .leaf 0x434952454d554e5f42535f55 .leaf)
  0x434952454d554e5f42575f55 .leaf))
  0x434952454d554e5f544e5f55 (.node (.node (.node .leaf 0x44454e47495353414e555f55 .leaf)
  0x44455441544f525f4f565f55 .leaf)
  0x44494855425f4b434f4c4255 (.node (.node .leaf 0x444e455458455f4243475f55 .leaf)
  0x4543415053575a5f424c5f55 .leaf)))
  0x454741534f5f4b434f4c4255 (.node (.node (.node (.node .leaf 0x45485f484455595f474a5f55 .leaf)
  0x454e494c57454e5f42575f55 (.node .leaf 0x455341425f455f4243475f55 .leaf))
  0x4854414b4d45535f474a5f55 (.node (.node .leaf 0x49524b41545f4b434f4c4255 .leaf)
  0x4b414552424f4e5f54445f55 .leaf))
  0x4b415441425f4b434f4c4255 (.node (.node (.node .leaf 0x4b454552475f4b434f4c4255 .leaf)
  0x4b53414d5f43435f43475f55 .leaf)
  0x4b53414d5f434c5f43475f55 (.node (.node .leaf 0x4b53414d5f434d5f43475f55 .leaf)
  0x4b53414d5f43505f43475f55 .leaf)))))
  0x4b53414d5f43535f43475f55 (.node (.node (.node (.node (.node (.node .leaf 0x4b53414d5f444e5f43475f55 .leaf)
  0x4b53414d5f44505f43475f55 (.node .leaf 0x4b53414d5f454d5f43475f55 .leaf))
  0x4b53414d5f45505f43475f55 (.node (.node .leaf 0x4b53414d5f46435f43475f55 .leaf)
  0x4b53414d5f46505f43475f55 .leaf))
  0x4b53414d5f49505f43475f55 (.node (.node (.node .leaf 0x4b53414d5f4b535f43475f55 .leaf)
  0x4b53414d5f4c4c5f43475f55 .leaf)
  0x4b53414d5f4c4e5f43475f55 (.node (.node .leaf 0x4b53414d5f4c5a5f43475f55 .leaf)
  0x4b53414d5f4d4c5f43475f55 .leaf)))
  0x4b53414d5f4d535f43475f55 (.node (.node (.node (.node .leaf 0x4b53414d5f4e435f43475f55 .leaf)
  0x4b53414d5f4e4d5f43475f55 (.node .leaf 0x4b53414d5f4f435f43475f55 .leaf))
  0x4b53414d5f4f4c5f43475f55 (.node (.node .leaf 0x4b53414d5f4f4e5f43475f55 .leaf)
  0x4b53414d5f4f505f43475f55 .leaf))
  0x4b53414d5f4f535f43475f55 (.node (.node (.node .leaf 0x4b53414d5f505a5f43475f55 .leaf)
  0x4b53414d5f53435f43475f55 .leaf)
  0x4b53414d5f53505f43475f55 (.node (.node .leaf 0x4b53414d5f535a5f43475f55 .leaf)
  0x4b53414d5f544c5f43475f55 .leaf))))
  0x4b53414d5f554c5f43475f55 (.node (.node (.node (.node (.node .leaf 0x4c414954494e495f54445f55 .leaf)
  0x4c414d494345445f544e5f55 (.node .leaf 0x4c41525455454e5f41455f55 .leaf))
  0x4c45574f565f43534e495f55 (.node (.node .leaf 0x4c494d41545f4b434f4c4255 .leaf)
  0x4d4148474f5f4b434f4c4255 .leaf))
  0x4d414c44415f4b434f4c4255 (.node (.node (.node .leaf 0x4d5245545f535f5241484355 .leaf)
  0x4d554d41425f4b434f4c4255 .leaf)
  0x4e45485059485f5241484355 (.node (.node .leaf 0x4e574f4e4b4e555f424c5f55 .leaf)
  0x524548544f5f43534e495f55 .leaf)))
  0x52454d484b5f4b434f4c4255 (.node (.node (.node (.node .leaf 0x52455454454c415f42575f55 .leaf)
  0x52455454454c4f5f42535f55 .leaf)
  0x544847495250555f4f565f55 (.node (.node .leaf 0x54484749525f43504e495f55 .leaf)
  0x5450495243535f5241484355 .leaf))
  0x55424d494c5f4b434f4c4255 (.node (.node (.node .leaf 0x55444e49425f43534e495f55 .leaf)
  0x554853554e5f4b434f4c4255 .leaf)
  0x41484350454c5f4b434f4c4255 (.node (.node .leaf 0x414d415249565f43534e495f55 .leaf)
  0x414d4b4148435f4b434f4c4255 .leaf)))))))
  0x414e414148545f4b434f4c4255 (.node (.node (.node (.node (.node (.node (.node (.node .leaf 0x414e414b4154414b5f42575f55 .leaf)
  0x4341495259535f4b434f4c4255 (.node .leaf 0x4349424152415f4b434f4c4255 .leaf))
  0x434948544f475f4b434f4c4255 (.node (.node .leaf 0x434954504f435f4b434f4c4255 .leaf)
  0x444554414c4f53495f54445f55 .leaf))
  0x444e45504552505f4243475f55 (.node (.node (.node .leaf 0x454c5f4941545f4b434f4c4255 .leaf)
  0x474e414a45525f4b434f4c4255 .leaf)
  0x4944495a45595f4b434f4c4255 (.node (.node .leaf 0x49485449414b5f4b434f4c4255 .leaf)
  0x494b4a4f484b5f4b434f4c4255 .leaf)))
  0x494d484152425f4b434f4c4255 (.node (.node (.node (.node .leaf 0x4c4143494441525f5241484355 .leaf)
  0x4c414349545245565f54445f55 (.node .leaf 0x4c414f475f4845485f474a5f55 .leaf))
  0x4c4f424d59535f4854414d5f55 (.node (.node .leaf 0x4c4f52544e4f435f4243475f55 .leaf)
  0x4d4f54544f425f43504e495f55 .leaf))
  0x4e414943594c5f4b434f4c4255 (.node (.node (.node .leaf 0x4e414944594c5f4b434f4c4255 .leaf)
  0x4e41495241435f4b434f4c4255 .leaf)
  0x4e41525441485f4b434f4c4255 (.node (.node .leaf 0x4e4f4954434152465f54445f55 .leaf)
  0x4e55424e414b5f4b434f4c4255 .leaf))))
  0x4f48434e41575f4b434f4c4255 (.node (.node (.node (.node (.node .leaf 0x524148435f54414d524f465f55 .leaf)
  0x5245424d554e5f43534e495f55 (.node .leaf 0x52454e494f4a5f43534e495f55 .leaf))
  0x53574f5252415f4b434f4c4255 (.node (.node .leaf 0x5455474e41545f4b434f4c4255 .leaf)
  0x5547554c45545f4b434f4c4255 .leaf))
  0x5745524245485f4b434f4c4255 (.node (.node (.node .leaf 0x4144414e4e414b5f4b434f4c4255 .leaf)
  0x414441524148535f4b434f4c4255 .leaf)
  0x414752415349565f43534e495f55 (.node (.node .leaf 0x4148544e4152475f4b434f4c4255 .leaf)
  0x414c41484e49535f4b434f4c4255 .leaf)))
  0x415455485249545f4b434f4c4255 (.node (.node (.node (.node .leaf 0x41594e414d534f5f4b434f4c4255 .leaf)
  0x434941444e414d5f4b434f4c4255 (.node .leaf 0x4349414d594c455f4b434f4c4255 .leaf))
  0x444545465f454e494c5f424c5f55 (.node (.node .leaf 0x4543415053474553575f42575f55 .leaf)
  0x454e494c5f5458454e5f424c5f55 .leaf))
  0x455441474f525255535f424c5f55 (.node (.node (.node .leaf 0x45554e49544e4f43535f42535f55 .leaf)
  0x46414b5f48534157535f474a5f55 .leaf)
  0x474f4c414741545f4b434f4c4255 (.node (.node .leaf 0x4845595f49535241465f474a5f55 .leaf)
  0x4854444957464c41485f41455f55 .leaf)))))
  0x48544449574c4c55465f41455f55 (.node (.node (.node (.node (.node (.node .leaf 0x494c41474e45425f4b434f4c4255 .leaf)
  0x494e41544c554d5f4b434f4c4255 (.node .leaf 0x4c4143494e4f4e41435f54445f55 .leaf))
  0x4c4f424d59535f524548544f5f55 (.node (.node .leaf 0x4d4148444449535f4b434f4c4255 .leaf)
  0x4e414944474f535f4b434f4c4255 .leaf))
  0x4e4149564148535f4b434f4c4255 (.node (.node (.node .leaf 0x4e415341424c455f4b434f4c4255 .leaf)
  0x4e4154454249545f4b434f4c4255 .leaf)
  0x4e4154534556415f4b434f4c4255 (.node (.node .leaf 0x4e45484352414d5f4b434f4c4255 .leaf)
  0x4e4f495441544f55515f424c5f55 .leaf)))
  0x4f424d4f594f535f4b434f4c4255 (.node (.node (.node (.node .leaf 0x4f4f4e554e41485f4b434f4c4255 .leaf)
  0x524148435f4c4f52544e4f435f55 (.node .leaf 0x52414d4e41594d5f4b434f4c4255 .leaf))
  0x524153414b414d5f4b434f4c4255 (.node (.node .leaf 0x5245424d554e5f524548544f5f55 .leaf)
  0x5245444e455458455f5241484355 .leaf))
  0x52455454454c44494d5f42575f55 (.node (.node (.node .leaf 0x52455454454c5f524548544f5f55 .leaf)
  0x53554f554749424d415f41455f55 .leaf)
  0x53554f554749424d415f424c5f55 (.node (.node .leaf 0x54454c4d554e44494d5f42575f55 .leaf)
  0x544552455345445f4b434f4c4255 .leaf))))
  0x54524154535f44495f5241484355 (.node (.node (.node (.node (.node .leaf 0x41484152474156415f43534e495f55 .leaf)
  0x414e4147415249485f4b434f4c4255 (.node .leaf 0x414e414b4154414b5f4b434f4c4255 .leaf))
  0x41505f53474148505f4b434f4c4255 (.node (.node .leaf 0x41574e41424741545f4b434f4c4255 .leaf)
  0x415f5241454e494c5f4b434f4c4255 .leaf))
  0x43494c4c495259435f4b434f4c4255 (.node (.node (.node .leaf 0x4349504f494854455f4b434f4c4255 .leaf)
  0x43495445424148504c415f424c5f55 .leaf)
  0x43495449524147555f4b434f4c4255 (.node (.node .leaf 0x4349544952434149445f5241484355 .leaf)
  0x45454b4f524548435f4b434f4c4255 .leaf)))
  0x4545525241425f4845595f474a5f55 (.node (.node (.node (.node .leaf 0x4553414352455050555f5241484355 .leaf)
  0x455341435245574f4c5f5241484355 (.node .leaf 0x4553454e4156414a5f4b434f4c4255 .leaf))
  0x4553454e494755425f4b434f4c4255 (.node (.node .leaf 0x4553454e494c41425f4b434f4c4255 .leaf)
  0x45554c41565f4e494d5f5241484355 .leaf))
  0x45554c41565f58414d5f5241484355 (.node (.node (.node .leaf 0x4847414e494649545f4b434f4c4255 .leaf)
  0x48544f425f4b414552425f424c5f55 .leaf)
  0x49484b554d5255475f4b434f4c4255 (.node (.node .leaf 0x494b4948435f4c4f5f4b434f4c4255 .leaf)
  0x494c5f484159414b5f4b434f4c4255 .leaf))))))
  0x494e414a4148414d5f4b434f4c4255 (.node (.node (.node (.node (.node (.node (.node .leaf 0x49544152414a55475f4b434f4c4255 .leaf)
  0x4b434f4c425f4f4e5f4b434f4c4255 (.node .leaf 0x4c41525455454e5f524548544f5f55 .leaf))
  0x4d4148545f4941545f4b434f4c4255 (.node (.node .leaf 0x4e414947524f45475f4b434f4c4255 .leaf)
  0x4e41494e454d52415f4b434f4c4255 .leaf))
  0x4e41594f4c5055445f4b434f4c4255 (.node (.node (.node .leaf 0x4f464f4d4f504f425f4b434f4c4255 .leaf)
  0x5245424d554e5f4349424152415f55 .leaf)
  0x5245424d554e5f52455454454c5f55 (.node (.node .leaf 0x5245494649444f4d5f455f424c5f55 .leaf)
  0x5245494649444f4d5f455f42575f55 .leaf)))
  0x524554524154534e4f4e5f424c5f55 (.node (.node (.node (.node .leaf 0x534c4149434550535f4b434f4c4255 .leaf)
  0x53544142474e49445f4b434f4c4255 (.node .leaf 0x544549565f4941545f4b434f4c4255 .leaf))
  0x5446454c5f4f545f54484749525f55 (.node (.node .leaf 0x54484749525f4f545f5446454c5f55 .leaf)
  0x54494749445f5845485f5241484355 .leaf))
  0x54524154535f4449585f5241484355 (.node (.node (.node .leaf 0x54524154535f544e495f5241484355 .leaf)
  0x5452454e495f43464e5f5241484355 .leaf)
  0x5452454e495f44464e5f5241484355 (.node (.node .leaf 0x5741575f4341495259535f474a5f55 .leaf)
  0x5a41475f455341425f455f42575f55 .leaf))))
  0x4154554252414d5f4845545f474a5f55 (.node (.node (.node (.node (.node .leaf 0x434948504152474f4544495f424c5f55 .leaf)
  0x43495445424148504c415f5241484355 (.node .leaf 0x444554414345525045445f5241484355 .leaf))
  0x454c424152415045534e495f424c5f55 (.node (.node .leaf 0x454c424152455045534e495f424c5f55 .leaf)
  0x454e4552594d4c41505f4b434f4c4255 .leaf))
  0x45505f44455352455645525f474a5f55 (.node (.node (.node .leaf 0x4553454e41444e55535f4b434f4c4255 .leaf)
  0x4641515f4e4143495246415f474a5f55 .leaf)
  0x474e494e494f4a5f4e4f4e5f544a5f55 (.node (.node .leaf 0x4841565f41535341425f4b434f4c4255 .leaf)
  0x4845465f4e4143495246415f474a5f55 .leaf)))
  0x4845485f444554544f4e4b5f474a5f55 (.node (.node (.node (.node .leaf 0x485349525f4854414c41445f474a5f55 .leaf)
  0x49444157414455484b5f4b434f4c4255 (.node .leaf 0x494b55534b494148425f4b434f4c4255 .leaf))
  0x4b414552425f44524f575f5241484355 (.node (.node .leaf 0x4b414552425f454e494c5f5241484355 .leaf)
  0x4b52414d5f454e4f545f43534e495f55 .leaf))
  0x4b52414d5f474e49534f4c434e455f55 (.node (.node (.node .leaf 0x4d414c4159414c414d5f4b434f4c4255 .leaf)
  0x4d524f4649454e55435f4b434f4c4255 .leaf)
  0x4e414541544142414e5f4b434f4c4255 (.node (.node .leaf 0x4e41494c4f474e4f4d5f4b434f4c4255 .leaf)
  0x4e41544952414d41535f4b434f4c4255 .leaf)))))
  0x4e4f4954414d414c4358455f424c5f55 (.node (.node (.node (.node (.node (.node .leaf 0x4f4d414a5f4c45574f565f5453485f55 .leaf)
  0x5245494649444f4d5f455f4243475f55 (.node .leaf 0x52454e494f4a5f44524f575f424c5f55 .leaf))
  0x52455446415f4b414552425f424c5f55 (.node (.node .leaf 0x524f544152415045535f454e494c5f55 .leaf)
  0x534e4f4349544f4d455f4b434f4c4255 .leaf))
  0x5353414c435f494449425f5241484355 (.node (.node (.node .leaf 0x544e414e4f534e4f435f43534e495f55 .leaf)
  0x544e45524150534e4152545f544a5f55 .leaf)
  0x54524154535f4b53414d5f5241484355 (.node (.node .leaf 0x5452454e495f434b464e5f5241484355 .leaf)
  0x5452454e495f444b464e5f5241484355 .leaf)))
  0x5a41475f455341425f455f4243475f55 (.node (.node (.node (.node .leaf 0x414a5f4d414c4159414c414d5f474a5f55 .leaf)
  0x415254485341525541535f4b434f4c4255 (.node .leaf 0x41525f4d414c4159414c414d5f474a5f55 .leaf))
  0x434948504152474f4544495f5241484355 (.node (.node .leaf 0x43494b5255545f444c4f5f4b434f4c4255 .leaf)
  0x43494c4154495f444c4f5f4b434f4c4255 .leaf))
  0x43494d5245505f444c4f5f4b434f4c4255 (.node (.node (.node .leaf 0x434954494c4f47414c475f4b434f4c4255 .leaf)
  0x444554544f445f54464f535f5241484355 .leaf)
  0x45434150535f45544948575f5241484355 (.node (.node .leaf 0x454c42414c4c59535f564c5f5453485f55 .leaf)
  0x45524f4645425f4b414552425f424c5f55 .leaf))))
  0x45544f55515f454c42554f445f42575f55 (.node (.node (.node (.node (.node .leaf 0x45544f55515f454c474e49535f42575f55 .leaf)
  0x45554e49544e4f435f44495f5241484355 (.node .leaf 0x474e494e494f4a5f4c4155445f544a5f55 .leaf))
  0x474e494e494f4a5f5446454c5f544a5f55 (.node (.node .leaf 0x474e49535541435f4e494f4a5f544a5f55 .leaf)
  0x4845595f4159474e49484f525f474a5f55 .leaf))
  0x48504152475f5849534f505f5241484355 (.node (.node (.node .leaf 0x49485448534f5241484b5f4b434f4c4255 .leaf)
  0x49524147414e415645445f4b434f4c4255 .leaf)
  0x4b43555254535245564f5f43504e495f55 (.node (.node .leaf 0x4b4e414c425f5849534f505f5241484355 .leaf)
  0x4c4f424d59535f5245494649444f4d5f55 .leaf)))
  0x4c4f424d59535f59434e45525255435f55 (.node (.node (.node (.node .leaf 0x4d554e4c415f5849534f505f5241484355 .leaf)
  0x4e4145414843494e414d5f4b434f4c4255 .leaf)
  0x4e414943494e454f48505f4b434f4c4255 (.node (.node .leaf 0x4e41494d5341524f48435f4b434f4c4255 .leaf)
  0x4e4f49535245565f45444f43494e555f55 .leaf))
  0x4e4f4954415554434e55505f444e455f55 (.node (.node (.node .leaf 0x4e4f4f4e5f4e4143495246415f474a5f55 .leaf)
  0x5245424d554e5f4e4145504f5255455f55 .leaf)
  0x52454e494f4a5f4e4f4e5f43534e495f55 (.node (.node .leaf 0x52455454454c5f5245494649444f4d5f55 .leaf)
  0x524f544152415045535f45434150535f55 .leaf))))))))
  0x524f544152415045535f4b434f4c425f55 (.node (.node (.node (.node (.node (.node (.node (.node (.node .leaf 0x5341494c415f454d414e5f524148435f55 .leaf)
  0x54454c4d554e444e455458455f42575f55 (.node .leaf 0x544e4952505f5849534f505f5241484355 .leaf))
  0x5741575f54484749415254535f474a5f55 (.node (.node .leaf 0x41474e5f4d414c4159414c414d5f474a5f55 .leaf)
  0x4148425f4d414c4159414c414d5f474a5f55 .leaf))
  0x414c4c5f4d414c4159414c414d5f474a5f55 (.node (.node (.node .leaf 0x414e4e5f4d414c4159414c414d5f474a5f55 .leaf)
  0x4153535f4d414c4159414c414d5f474a5f55 .leaf)
  0x4154545f4d414c4159414c414d5f474a5f55 (.node (.node .leaf 0x41594e5f4d414c4159414c414d5f474a5f55 .leaf)
  0x434952454d554e5f5849464e495f424c5f55 .leaf)))
  0x45444f435f44494c41564e495f5241484355 (.node (.node (.node (.node .leaf 0x454c42414c4c59535f54564c5f5453485f55 .leaf)
  0x455059545f434952454d554e5f5241484355 (.node .leaf 0x455059545f474e494e494f4a5f5241484355 .leaf))
  0x45505f4e4145414843494e414d5f474a5f55 (.node (.node .leaf 0x4553555f455441564952505f4b434f4c4255 .leaf)
  0x45554c5f4941545f57454e5f4b434f4c4255 .leaf))
  0x45554e49544e4f435f4449585f5241484355 (.node (.node (.node .leaf 0x474e49444c4f465f455341435f5241484355 .leaf)
  0x474e494e494f4a5f54484749525f544a5f55 .leaf)
  0x474e49574152445f584f425f4b434f4c4255 (.node (.node .leaf 0x4854414b4d45535f4c414e49465f474a5f55 .leaf)
  0x49524147414e49444e414e5f4b434f4c4255 .leaf))))
  0x495449435f474e415241575f4b434f4c4255 (.node (.node (.node (.node (.node .leaf 0x4b52414d5f474e49434150535f4243475f55 .leaf)
  0x4b52414d5f474e49434150535f4e4f4e5f55 (.node .leaf 0x4c41525455454e5f595241444e554f425f55 .leaf))
  0x4c4941545f485449575f4845595f474a5f55 (.node (.node .leaf 0x4c4f52544e4f435f494449425f5241484355 .leaf)
  0x4c4f52544e4f435f4e494f4a5f5241484355 .leaf))
  0x4e414944474f535f444c4f5f4b434f4c4255 (.node (.node (.node .leaf 0x4e4149535245505f444c4f5f4b434f4c4255 .leaf)
  0x4e4952444941464544454d5f4b434f4c4255 .leaf)
  0x4e4954414c5f43495341425f4b434f4c4255 (.node (.node .leaf 0x4e4f4954415554434e55505f485341445f55 .leaf)
  0x4f4d414a5f474e494441454c5f5453485f55 .leaf)))
  0x4f4d414a5f4c55474e41485f4b434f4c4255 (.node (.node (.node (.node .leaf 0x524148435f4553555f455441564952505f55 .leaf)
  0x52454c4c494b5f455255505f43534e495f55 (.node .leaf 0x52455454454c5f454e4f545f43534e495f55 .leaf))
  0x52455454454c5f45534143454c5449545f55 (.node (.node .leaf 0x52455454454c5f4553414352455050555f55 .leaf)
  0x52455454454c5f455341435245574f4c5f55 .leaf))
  0x52455454454c5f5745524245485f424c5f55 (.node (.node (.node .leaf 0x52455454454c5f5745524245485f42575f55 .leaf)
  0x53454b4f5254535f4b4a435f4b434f4c4255 .leaf)
  0x534c4143494441525f49595f4b434f4c4255 (.node (.node .leaf 0x534c4f424d59535f4b414552425f424c5f55 .leaf)
  0x5449474944585f5849534f505f5241484355 .leaf)))))
  0x54524154535f454c42554f445f5241484355 (.node (.node (.node (.node (.node (.node .leaf 0x54524154535f474e495254535f5241484355 .leaf)
  0x54524154535f5952414e49425f5241484355 (.node .leaf 0x5541485f4e49435f5541505f4b434f4c4255 .leaf))
  0x5552554b415f53455649445f4b434f4c4255 (.node (.node .leaf 0x414c4c4c5f4d414c4159414c414d5f474a5f55 .leaf)
  0x414e4e4e5f4d414c4159414c414d5f474a5f55 .leaf))
  0x434952454d554e5f5849464552505f424c5f55 (.node (.node (.node .leaf 0x4445524f5252494d5f494449425f5241484355 .leaf)
  0x45444f435f44494c41564e495f4b434f4c4255 .leaf)
  0x454d414e5f524148435f45444f43494e555f55 (.node (.node .leaf 0x454e4f5f4e4145414843494e414d5f474a5f55 .leaf)
  0x455341425f454d4548504152475f5241484355 .leaf)))
  0x45554c41565f434952454d554e5f5241484355 (.node (.node (.node (.node .leaf 0x474e45504d4f535f41524f535f4b434f4c4255 .leaf)
  0x474e4f4d485f4857414841505f4b434f4c4255 (.node .leaf 0x495247414e5f49544f4c59535f4b434f4c4255 .leaf))
  0x4a575a5f52455446415f45554c475f42575f55 (.node (.node .leaf 0x4b4559414d5f49455445454d5f4b434f4c4255 .leaf)
  0x4b4e494c5f454d4548504152475f5241484355 .leaf))
  0x4b52414d5f474e494e49424d4f435f424c5f55 (.node (.node (.node .leaf 0x4d454d5f4e4145414843494e414d5f474a5f55 .leaf)
  0x4e45545f4e4145414843494e414d5f474a5f55 .leaf)
  0x4e4f4954415554434e55505f4c414e49465f55 (.node (.node .leaf 0x4e4f4954415554434e55505f524548544f5f55 .leaf)
  0x4e4f4954415554434e55505f54524154535f55 .leaf))))
  0x4e554e5f4e4145414843494e414d5f474a5f55 (.node (.node (.node (.node (.node .leaf 0x4f4d414a5f474e494c494152545f5453485f55 .leaf)
  0x50554f52475f474e494e494f4a5f5241484355 (.node .leaf 0x524f544152415045535f544e454d4745535f55 .leaf))
  0x53454c42414c4c59535f49595f4b434f4c4255 (.node (.node .leaf 0x53454c49545f4f4e494d4f445f4b434f4c4255 .leaf)
  0x534d524f465f5245424d554e5f4b434f4c4255 .leaf))
  0x5446454c5f444e415f504f545f43504e495f55 (.node (.node (.node .leaf 0x5741545f4e4145414843494e414d5f474a5f55 .leaf)
  0x5741575f4e4145414843494e414d5f474a5f55 .leaf)
  0x434952454d554e5f58494654534f505f424c5f55 (.node (.node .leaf 0x435349445f534f5453494148505f4b434f4c4255 .leaf)
  0x454c424143494c5050415f544f4e5f5453485f55 .leaf)))
  0x454c4241524f4e47495f455341435f5241484355 (.node (.node (.node (.node .leaf 0x454d414e5f524148435f4445444e455458455f55 .leaf)
  0x454d414e5f59545245504f52505f474e4f4c5f55 (.node .leaf 0x455649465f4e4145414843494e414d5f474a5f55 .leaf))
  0x4556495449534e45535f455341435f5241484355 (.node (.node .leaf 0x48444f595f4e4145414843494e414d5f474a5f55 .leaf)
  0x4850414b5f4e4145414843494e414d5f474a5f55 .leaf))
  0x48504f515f4e4145414843494e414d5f474a5f55 (.node (.node (.node .leaf 0x485345525f4e4145414843494e414d5f474a5f55 .leaf)
  0x485445425f4e4145414843494e414d5f474a5f55 .leaf)
  0x485445485f4e4145414843494e414d5f474a5f55 (.node (.node .leaf 0x485445545f4e4145414843494e414d5f474a5f55 .leaf)
  0x49444e4f475f414c414a4e55475f4b434f4c4255 .leaf))))))
  0x49444e4f475f4d41524153414d5f4b434f4c4255 (.node (.node (.node (.node (.node (.node (.node .leaf 0x49554b414b494b5f45444e454d5f4b434f4c4255 .leaf)
  0x4a575a5f52455446415f45554c475f4243475f55 (.node .leaf 0x4b414552425f45434e45544e45535f5241484355 .leaf))
  0x4b414552425f59524f5441444e414d5f424c5f55 (.node (.node .leaf 0x4b52414d5f4e4f495441544f55515f5241484355 .leaf)
  0x4e41495241474e55485f444c4f5f4b434f4c4255 .leaf))
  0x4e4959415f4e4145414843494e414d5f474a5f55 (.node (.node (.node .leaf 0x4e52555445525f45474149525241435f424c5f55 .leaf)
  0x5245494649444f4d5f494a4f4d455f5241484355 .leaf)
  0x52454e494f4a5f5245424d554e5f43534e495f55 (.node (.node .leaf 0x53445241435f474e4959414c505f4b434f4c4255 .leaf)
  0x53454c49545f474e4f4a48414d5f4b434f4c4255 .leaf)))
  0x534c4f424d59535f52454d484b5f4b434f4c4255 (.node (.node (.node (.node .leaf 0x534c4f424d59535f53534548435f4b434f4c4255 .leaf)
  0x54484749525f444e415f504f545f43504e495f55 (.node .leaf 0x545845544e4f435f58454c504d4f435f424c5f55 .leaf))
  0x5841544e59535f4e5245545441505f5241484355 (.node (.node .leaf 0x444145445f544e414e4f534e4f435f43534e495f55 .leaf)
  0x4445444e455458455f4b454552475f4b434f4c4255 .leaf))
  0x444e455458455f454d4548504152475f5241484355 (.node (.node (.node .leaf 0x45484441535f4e4145414843494e414d5f474a5f55 .leaf)
  0x454d414e5f59545245504f52505f54524f48535f55 .leaf)
  0x4850454c415f4e4145414843494e414d5f474a5f55 (.node (.node .leaf 0x4b414552425f544e45474e49544e4f435f424c5f55 .leaf)
  0x4b434548435f4b434955515f43464e5f5241484355 .leaf))))
  0x4b434548435f4b434955515f44464e5f5241484355 (.node (.node (.node (.node (.node .leaf 0x4c414f475f4154554252414d5f4845545f474a5f55 .leaf)
  0x4c41525455454e5f45434150535f45544948575f55 (.node .leaf 0x4c454d49475f4e4145414843494e414d5f474a5f55 .leaf))
  0x4d4f54544f425f444e415f504f545f43504e495f55 (.node (.node .leaf 0x4e4959415a5f4e4145414843494e414d5f474a5f55 .leaf)
  0x4e4f4954415554434e55505f4c414954494e495f55 .leaf))
  0x4e4f4954415554434e55505f4e45504f5f424c5f55 (.node (.node (.node .leaf 0x50554f52475f474e494e494f4a5f4f4e5f474a5f55 .leaf)
  0x524554524154535f544e454d4745535f5241484355 .leaf)
  0x524f544152415045535f4850415247415241505f55 (.node (.node .leaf 0x53455059545f524548544f5f4c4152454e45475f55 .leaf)
  0x53455441474f525255535f574f4c5f4b434f4c4255 .leaf)))
  0x534c4152454d554e5f4e4159414d5f4b434f4c4255 (.node (.node (.node (.node .leaf 0x534d524f465f4c414349545245565f4b434f4c4255 .leaf)
  0x534e4f49534e455458455f4150495f4b434f4c4255 (.node .leaf 0x535245424d554e5f4e41454745415f4b434f4c4255 .leaf))
  0x53544e454d454c455f4b434f4c425f4b434f4c4255 (.node (.node .leaf 0x54484749525f444e415f5446454c5f43504e495f55 .leaf)
  0x54494749445f5845485f49494353415f5241484355 .leaf))
  0x544e454e4f504d4f435f494a4f4d455f5241484355 (.node (.node (.node .leaf 0x544e554f435f59524f47455441435f524148435f55 .leaf)
  0x4159474e49484f525f4946494e41485f4b434f4c4255 .leaf)
  0x415f4445444e455458455f414e414b5f4b434f4c4255 (.node (.node .leaf 0x4349424152415f5446454c5f4f545f54484749525f55 .leaf)
  0x4554414c4f53495f474e4f5254535f54535249465f55 .leaf)))))
  0x4844454d414c5f4e4145414843494e414d5f474a5f55 (.node (.node (.node (.node (.node (.node .leaf 0x484b454d41535f4e4145414843494e414d5f474a5f55 .leaf)
  0x48544449575f4e414953415f545341455f5241484355 (.node .leaf 0x4854454c41445f4e4145414843494e414d5f474a5f55 .leaf))
  0x4956414c4841505f5245544c4153505f4b434f4c4255 (.node (.node .leaf 0x4b434548435f4b434955515f434b464e5f5241484355 .leaf)
  0x4b434548435f4b434955515f444b464e5f5241484355 .leaf))
  0x4b52414d5f474e49434150535f4e4f4e5f5249445f55 (.node (.node (.node .leaf 0x4b52414d5f4e4f4954414e494d45475f43534e495f55 .leaf)
  0x4c414e49465f544e414e4f534e4f435f43534e495f55 .leaf)
  0x4c414f475f4845485f4e4f5f415a4d41485f474a5f55 (.node (.node .leaf 0x4e4f4954415554434e55505f45534f4c435f424c5f55 .leaf)
  0x5245424d554e5f54494749445f4c414d494345445f55 .leaf)))
  0x53455441474f525255535f484749485f4b434f4c4255 (.node (.node (.node (.node .leaf 0x5349534548544e455241505f45534f4c435f424c5f55 .leaf)
  0x534c4143494441525f4958474e414b5f4b434f4c4255 (.node .leaf 0x534c4f424d59535f4c41434953554d5f4b434f4c4255 .leaf))
  0x534c4f424d59535f544e4549434e415f4b434f4c4255 (.node (.node .leaf 0x5446454c5f444e415f4d4f54544f425f43504e495f55 .leaf)
  0x544e45444e455045445f4c45574f565f43534e495f55 .leaf))
  0x544e454d454c505055535f414e414b5f4b434f4c4255 (.node (.node (.node .leaf 0x544e454d454c505055535f5553494c5f4b434f4c4255 .leaf)
  0x59524f47455441435f4c4152454e45475f5241484355 .leaf)
  0x59544e4557545f4e4145414843494e414d5f474a5f55 (.node (.node .leaf 0x414552415f4553555f455441564952505f4b434f4c4255 .leaf)
  0x41505f4159474e49484f525f4946494e41485f474a5f55 .leaf))))
  0x415f4445444e455458455f4e4954414c5f4b434f4c4255 (.node (.node (.node (.node (.node .leaf 0x425f4445444e455458455f4e4954414c5f4b434f4c4255 .leaf)
  0x4349414d4152415f4c41495245504d495f4b434f4c4255 (.node .leaf 0x435f4445444e455458455f4e4954414c5f4b434f4c4255 .leaf))
  0x444552444e55485f4e4145414843494e414d5f474a5f55 (.node (.node .leaf 0x445f4445444e455458455f4e4954414c5f4b434f4c4255 .leaf)
  0x4552415551535f52415a4142414e415a5f4b434f4c4255 .leaf))
  0x4554414c4f53495f5446454c5f4f545f54484749525f55 (.node (.node (.node .leaf 0x4554414c4f53495f54484749525f4f545f5446454c5f55 .leaf)
  0x455649535255435f434954494f52454d5f4b434f4c4255 .leaf)
  0x455f4445444e455458455f4e4954414c5f4b434f4c4255 (.node (.node .leaf 0x474e495050414d5f45534143454c5449545f5241484355 .leaf)
  0x474e495050414d5f4553414352455050555f5241484355 .leaf)))
  0x474e495050414d5f455341435245574f4c5f5241484355 (.node (.node (.node (.node .leaf 0x4844454d4148445f4e4145414843494e414d5f474a5f55 .leaf)
  0x4844454d4148545f4e4145414843494e414d5f474a5f55 .leaf)
  0x48504152474f4544495f44454946494e555f5241484355 (.node (.node .leaf 0x4c414944454d5f544e414e4f534e4f435f43534e495f55 .leaf)
  0x4e4f4954415554434e55505f524f5443454e4e4f435f55 .leaf))
  0x52454c4c494b5f544e414e4f534e4f435f43534e495f55 (.node (.node (.node .leaf 0x524554464948535f52455453494745525f43534e495f55 .leaf)
  0x52455454454c5f474e49594649444f4d5f43534e495f55 .leaf)
  0x524f54414349444e495f4c414e4f494745525f424c5f55 (.node (.node .leaf 0x524f54414349444e495f4c414e4f494745525f42575f55 .leaf)
  0x53454c42414c4c59535f4c55474e41485f4b434f4c4255 .leaf)))))))
  0x5345504148535f43495254454d4f45475f4b434f4c4255 (.node (.node (.node (.node (.node (.node (.node (.node .leaf 0x53455255544349505f4c4f52544e4f435f4b434f4c4255 .leaf)
  0x534c4f424d59535f59434e45525255435f4b434f4c4255 (.node .leaf 0x534e4f49534e455458455f43494445565f4b434f4c4255 .leaf))
  0x534e4f49534e455458455f5450495243535f5241484355 (.node (.node .leaf 0x534e5245545441505f454c4c494152425f4b434f4c4255 .leaf)
  0x54484749525f444e415f4d4f54544f425f43504e495f55 .leaf))
  0x544e454d454c505055535f4c494d41545f4b434f4c4255 (.node (.node (.node .leaf 0x544e454d454c505055535f4d554d41425f4b434f4c4255 .leaf)
  0x415f4445444e455458455f4349424152415f4b434f4c4255 .leaf)
  0x4445444e455458455f4349504f494854455f4b434f4c4255 (.node (.node .leaf 0x4445444e455458455f4e414947524f45475f4b434f4c4255 .leaf)
  0x4445444e455458455f4f464f4d4f504f425f4b434f4c4255 .leaf)))
  0x44455441544f525f44454d524f46534e4152545f4f565f55 (.node (.node (.node (.node .leaf 0x454449525245564f5f5446454c5f4f545f54484749525f55 .leaf)
  0x454449525245564f5f54484749525f4f545f5446454c5f55 (.node .leaf 0x455059545f4e4f495449534f504d4f4345445f5241484355 .leaf))
  0x4b52414d5f474e49434150535f474e494e49424d4f435f55 (.node (.node .leaf 0x4b52414d5f4e4f4954414c4c49544e41435f43534e495f55 .leaf)
  0x4e4149424152415f4854524f4e5f444c4f5f4b434f4c4255 .leaf))
  0x4e4149424152415f4854554f535f444c4f5f4b434f4c4255 (.node (.node (.node .leaf 0x4e4f495441544e45534552505f494a4f4d455f5241484355 .leaf)
  0x5245494649444f4d5f454c42414c4c59535f43534e495f55 .leaf)
  0x52454b434154535f454c42495349564e495f43534e495f55 (.node (.node .leaf 0x524f54414349444e495f4c414e4f494745525f4243475f55 .leaf)
  0x524f54414349444e495f4c414e4f494745525f5241484355 .leaf))))
  0x524f5443454c45535f4e4f495441495241565f5241484355 (.node (.node (.node (.node (.node .leaf 0x53544e454e4f504d4f435f5455474e41545f4b434f4c4255 .leaf)
  0x54414d524f465f4c414e4f495443455249445f504f505f55 (.node .leaf 0x5446454c5f524544524f5f4c41555349565f43504e495f55 .leaf))
  0x544847495250555f44454d524f46534e4152545f4f565f55 (.node (.node .leaf 0x544e45444e455045444e495f4c45574f565f43534e495f55 .leaf)
  0x544e454d454c505055535f4341495259535f4b434f4c4255 .leaf))
  0x544e454d454c505055535f4349424152415f4b434f4c4255 (.node (.node (.node .leaf 0x544e454d454c505055535f5455474e41545f4b434f4c4255 .leaf)
  0x59524142414c4c59535f544f49525059435f4b434f4c4255 .leaf)
  0x5954494c4942495441504d4f435f4b4a435f4b434f4c4255 (.node (.node .leaf 0x415f4445444e455458455f52414d4e41594d5f4b434f4c4255 .leaf)
  0x425f4445444e455458455f52414d4e41594d5f4b434f4c4255 .leaf)))
  0x44455849464552505f544e414e4f534e4f435f43534e495f55 (.node (.node (.node (.node .leaf 0x45434150535f45544948575f4e5245545441505f5241484355 .leaf)
  0x455341425f5245494649444f4d5f494a4f4d455f5241484355 (.node .leaf 0x4554414c4f53495f4c414e4f495443455249445f504f505f55 .leaf))
  0x474e49444445424d455f5446454c5f4f545f54484749525f55 (.node (.node .leaf 0x474e49444445424d455f54484749525f4f545f5446454c5f55 .leaf)
  0x474e49444c4f465f455341435f454c504d49535f5241484355 .leaf))
  0x474e49544952574e4749535f4e4f545455535f4b434f4c4255 (.node (.node (.node .leaf 0x4e41494e41424c415f4e41495341435541435f4b434f4c4255 .leaf)
  0x524f544152415045535f5245424d554e5f4e4f4d4d4f435f55 .leaf)
  0x524f54415245504f5f5952414e49425f5344495f5241484355 (.node (.node .leaf 0x534c4f424d59535f454b494c52455454454c5f4b434f4c4255 .leaf)
  0x534c4f424d59535f4c4143494d4548434c415f4b434f4c4255 .leaf)))))
  0x534d4152474f4544495f425f5241454e494c5f4b434f4c4255 (.node (.node (.node (.node (.node (.node .leaf 0x54454b434152425f4445524941505f494449425f5241484355 .leaf)
  0x544e454d454c505055535f315f4e4954414c5f4b434f4c4255 (.node .leaf 0x59524142414c4c59535f425f5241454e494c5f4b434f4c4255 .leaf))
  0x415f4445444e455458455f43494c4c495259435f4b434f4c4255 (.node (.node .leaf 0x415f4445444e455458455f4349504f494854455f4b434f4c4255 .leaf)
  0x425f4445444e455458455f43494c4c495259435f4b434f4c4255 .leaf))
  0x435f4445444e455458455f43494c4c495259435f4b434f4c4255 (.node (.node (.node .leaf 0x4445444e455458455f49524147414e415645445f4b434f4c4255 .leaf)
  0x44454e494f4a4255535f544e414e4f534e4f435f43534e495f55 .leaf)
  0x4545525241425f4845595f494b53414853555255425f474a5f55 (.node (.node .leaf 0x455059545f454c42414c4c59535f4c55474e41485f5241484355 .leaf)
  0x4850594c475f474e49524f5252494d5f494449425f5241484355 .leaf)))
  0x4e4f495441544e4549524f5f4c414349545245565f5241484355 (.node (.node (.node (.node .leaf 0x4e4f4954415554434e55505f4c414e494d5245545f5241484355 .leaf)
  0x4e4f4954415554434e55505f4c4152454e45475f4b434f4c4255 (.node .leaf 0x524f54415245504f5f5952414e4952545f5344495f5241484355 .leaf))
  0x534e4f49534e455458455f434954454e4f48505f4b434f4c4255 (.node (.node .leaf 0x535245424d554e5f51415949535f4349444e495f4b434f4c4255 .leaf)
  0x53524f5443454c45535f4e4f495441495241565f4b434f4c4255 .leaf))
  0x53544142474e49445f4c41544e454d414e524f5f4b434f4c4255 (.node (.node (.node .leaf 0x53544e41495241565f4d524f465f4c4c414d535f4b434f4c4255 .leaf)
  0x544e454d454c505055535f43494c4c495259435f4b434f4c4255 .leaf)
  0x544e454d454c505055535f4349504f494854455f4b434f4c4255 (.node (.node .leaf 0x544e454d454c505055535f45454b4f524548435f4b434f4c4255 .leaf)
  0x544e454d454c505055535f4e414947524f45475f4b434f4c4255 .leaf))))
  0x5450495243535f4c4c414d535f4e415449484b5f4b434f4c4255 (.node (.node (.node (.node (.node .leaf 0x54524154535f59545245504f52505f524548544f5f5241484355 .leaf)
  0x434948504152474f544349505f4445444e455458455f5241484355 (.node .leaf 0x4b53414d5f59524f47455441435f4c4152454e45475f5241484355 .leaf))
  0x4e4f49534e455458455f414e414b5f4c4c414d535f4b434f4c4255 (.node (.node .leaf 0x524f544152415045535f5245424d554e5f4e4145504f5255455f55 .leaf)
  0x534850594c474f524549485f434954494f52454d5f4b434f4c4255 .leaf))
  0x534850594c474f524549485f4e414954505947455f4b434f4c4255 (.node (.node (.node .leaf 0x534b52414d5f464c41485f474e494e49424d4f435f4b434f4c4255 .leaf)
  0x534c4f424d59535f4c4152454d554e5f494d55525f4b434f4c4255 .leaf)
  0x535245424d554e5f54434150455f434954504f435f4b434f4c4255 (.node (.node .leaf 0x544e454d454c505055535f4553454e41444e55535f4b434f4c4255 .leaf)
  0x544e454d454c505055535f4e41494c4f474e4f4d5f4b434f4c4255 .leaf)))
  0x415f53574f5252415f4c41544e454d454c505055535f4b434f4c4255 (.node (.node (.node (.node .leaf 0x425f53574f5252415f4c41544e454d454c505055535f4b434f4c4255 .leaf)
  0x435f53574f5252415f4c41544e454d454c505055535f4b434f4c4255 (.node .leaf 0x4956414c4841505f4c414e4f495450495243534e495f4b434f4c4255 .leaf))
  0x4b414552425f52455453554c435f454d4548504152475f5241484355 (.node (.node .leaf 0x5245424d554e5f474e494e494f4a5f494d484152425f43534e495f55 .leaf)
  0x5245444c4f484543414c505f544e414e4f534e4f435f43534e495f55 .leaf))
  0x52455454454c5f444145485f544e414e4f534e4f435f43534e495f55 (.node (.node (.node .leaf 0x524f54414e494d5245545f5245424d554e5f4e4145504f5255455f55 .leaf)
  0x534850594c474f524549485f4e41494c4f54414e415f4b434f4c4255 .leaf)
  0x534c4152454d554e5f444f525f474e49544e554f435f4b434f4c4255 (.node (.node .leaf 0x534c4f424d59535f474e494a5f4e4155585f4941545f4b434f4c4255 .leaf)
  0x534c4f424d59535f53554f454e414c4c454353494d5f4b434f4c4255 .leaf))))))
  0x535245424d554e5f4b454552475f544e4549434e415f4b434f4c4255 (.node (.node (.node (.node (.node (.node (.node .leaf 0x535245424d554e5f51415949535f4e414d4f54544f5f4b434f4c4255 .leaf)
  0x5352455454454c5f454e4f545f5245494649444f4d5f4b434f4c4255 (.node .leaf 0x544e454d454c505055535f434954494c4f47414c475f4b434f4c4255 .leaf))
  0x41595f414e4e494b5f4159474e49484f525f4946494e41485f474a5f55 (.node (.node .leaf 0x415f4445444e455458455f4f4d414a5f4c55474e41485f4b434f4c4255 .leaf)
  0x425f4445444e455458455f4f4d414a5f4c55474e41485f4b434f4c4255 .leaf))
  0x4445444c4f46455341435f4e4548575f5345474e4148435f5241484355 (.node (.node (.node .leaf 0x44455050414d455341435f4e4548575f5345474e4148435f5241484355 .leaf)
  0x4445534143454c5449545f4e4548575f5345474e4148435f5241484355 .leaf)
  0x444553414352455050555f4e4548575f5345474e4148435f5241484355 (.node (.node .leaf 0x44455341435245574f4c5f4e4548575f5345474e4148435f5241484355 .leaf)
  0x474e4f4d485f455548434155505f474e454b4149594e5f4b434f4c4255 .leaf)))
  0x4e414948545241505f4c414e4f495450495243534e495f4b434f4c4255 (.node (.node (.node (.node .leaf 0x4e4f495450454358455f524544524f5f4c414349474f4c5f5241484355 .leaf)
  0x52454b434154535f485449575f544e414e4f534e4f435f43534e495f55 (.node .leaf 0x53434952454d554e4148504c415f4445534f4c434e455f4b434f4c4255 .leaf))
  0x5348504152474f4544495f44454946494e555f4b4a435f4b434f4c4255 (.node (.node .leaf 0x53524f54415245504f5f4c41434954414d454854414d5f4b434f4c4255 .leaf)
  0x54484749525f444e415f5446454c5f444e415f504f545f43504e495f55 .leaf))
  0x544e494f505f45444f435f5245544341524148434e4f4e5f5241484355 (.node (.node (.node .leaf 0x595241544e454d454c505055535f43494c4c495259435f4b434f4c4255 .leaf)
  0x59524f47455441435f434942414c4c59535f4349444e495f5241484355 .leaf)
  0x455059545f54454b434152425f4445524941505f494449425f5241484355 (.node (.node .leaf 0x474e495050414d5f45534143454c5449545f454c504d49535f5241484355 .leaf)
  0x474e495050414d5f4553414352455050555f454c504d49535f5241484355 .leaf))))
  0x474e495050414d5f455341435245574f4c5f454c504d49535f5241484355 (.node (.node (.node (.node (.node .leaf 0x4c4143494e484345545f53554f454e414c4c454353494d5f4b434f4c4255 .leaf)
  0x534c4f424d59535f4d415247415845485f474e494a49595f4b434f4c4255 (.node .leaf 0x534d524f465f5954494c4942495441504d4f435f4b4a435f4b434f4c4255 .leaf))
  0x534e4f49534e455458455f4b4559414d5f49455445454d5f4b434f4c4255 (.node (.node .leaf 0x535245424d554e5f434941484352415f414c41484e49535f4b434f4c4255 .leaf)
  0x5446454c5f444e415f4d4f54544f425f444e415f504f545f43504e495f55 .leaf))
  0x544e454d454c505055535f534c4143494441525f4b4a435f4b434f4c4255 (.node (.node (.node .leaf 0x4d524f4649454e55435f43495453414e59445f594c5241455f4b434f4c4255 .leaf)
  0x4e4f4954415554434e55505f4c41544e454d454c505055535f4b434f4c4255 .leaf)
  0x5352455454454c5f5245494649444f4d5f474e49434150535f4b434f4c4255 (.node (.node .leaf 0x5353414c435f474e494e49424d4f435f4c4143494e4f4e41435f5241484355 .leaf)
  0x54484749525f444e415f4d4f54544f425f444e415f504f545f43504e495f55 .leaf)))
  0x59524f47455441435f4c414e4f495449534f505f4349444e495f5241484355 (.node (.node (.node (.node .leaf 0x41485045525f474e494445434552505f544e414e4f534e4f435f43534e495f55 .leaf)
  0x4445444e455458455f5345504148535f43495254454d4f45475f4b434f4c4255 (.node .leaf 0x4c414e4f4954494444415f4445444e455458455f4e4954414c5f4b434f4c4255 .leaf))
  0x4e4f4953554c4358455f4e4f495449534f504d4f435f4c4c55465f5241484355 (.node (.node .leaf 0x4f4d414a5f5954494c4942495441504d4f435f4c55474e41485f4b434f4c4255 .leaf)
  0x534c4f424d59535f4c41434953554d5f454e49544e415a59425f4b434f4c4255 .leaf))
  0x534c4f424d59535f50414d5f444e415f54524f50534e4152545f4b434f4c4255 (.node (.node (.node .leaf 0x534c4f52544e4f435f54414d524f465f444e414854524f48535f4b434f4c4255 .leaf)
  0x534d524f465f5245424d554e5f4349444e495f4e4f4d4d4f435f4b434f4c4255 .leaf)
  0x41485045525f474e49444545434355535f544e414e4f534e4f435f43534e495f55 (.node (.node .leaf 0x524554524154535f4553454e4150414a5f4c414e4f495449444e4f435f424c5f55 .leaf)
  0x415f534d524f465f4e4f495441544e45534552505f4349424152415f4b434f4c4255 .leaf)))))
  0x425f534d524f465f4e4f495441544e45534552505f4349424152415f4b434f4c4255 (.node (.node (.node (.node (.node (.node .leaf 0x4445444c4f46455341435f434b464e5f4e4548575f5345474e4148435f5241484355 .leaf)
  0x444558494654534f505f4c414954494e495f544e414e4f534e4f435f43534e495f55 (.node .leaf 0x4b52414d5f4e4f4954414e455441434e4f435f4445444e45504552505f5241484355 .leaf))
  0x4e4f4954415554434e55505f444e415f534c4f424d59535f4b4a435f4b434f4c4255 (.node (.node .leaf 0x53455441474f525255535f4553555f455441564952505f484749485f4b434f4c4255 .leaf)
  0x534b52414d5f4c414349544952434149445f474e494e49424d4f435f4b434f4c4255 .leaf))
  0x534c4f424d59535f524f465f534b52414d5f474e494e49424d4f435f4b434f4c4255 (.node (.node (.node .leaf 0x535450495243534255535f444e415f5354504952435352455055535f4b434f4c4255 .leaf)
  0x544e494f505f45444f435f454c4241524f4e47495f544c55414645445f5241484355 .leaf)
  0x474e495455504d4f435f59434147454c5f524f465f534c4f424d59535f4b434f4c4255 (.node (.node .leaf 0x5348504152474f4544495f5954494c4942495441504d4f435f4b4a435f4b434f4c4255 .leaf)
  0x534e4f49534e455458455f434954454e4f48505f414e414b4154414b5f4b434f4c4255 .leaf)))
  0x4e4f4954494e474f4345525f5245544341524148435f4c41434954504f5f4b434f4c4255 (.node (.node (.node (.node .leaf 0x534d524f465f48544449574c4c55465f444e415f4854444957464c41485f4b434f4c4255 .leaf)
  0x534d524f465f4e4f495441544e45534552505f43495445424148504c415f4b434f4c4255 (.node .leaf 0x5353414c435f474e494e49424d4f435f4c4143494e4f4e41435f4441454c5f5241484355 .leaf))
  0x4e4f495441544f4e5f4c41434953554d5f4b454552475f544e4549434e415f4b434f4c4255 (.node (.node .leaf 0x5353414c435f474e494e49424d4f435f4c4143494e4f4e41435f4c494152545f5241484355 .leaf)
  0x544e454d454c505055535f534e4f49534e455458455f434954454e4f48505f4b434f4c4255 .leaf))
  0x544e454d454c505055535f53524f5443454c45535f4e4f495441495241565f4b434f4c4255 (.node (.node (.node .leaf 0x5348544e4f4d5f444e415f5352455454454c5f4b4a435f4445534f4c434e455f4b434f4c4255 .leaf)
  0x544e454d454c505055535f434948504152474f4544495f4445534f4c434e455f4b434f4c4255 .leaf)
  0x415f414552415f4553555f455441564952505f595241544e454d454c505055535f4b434f4c4255 (.node (.node .leaf 0x425f414552415f4553555f455441564952505f595241544e454d454c505055535f4b434f4c4255 .leaf)
  0x53574f5252415f444e415f534c4f424d59535f53554f454e414c4c454353494d5f4b434f4c4255 .leaf))))
  0x544e454d454c505055535f434952454d554e4148504c415f4445534f4c434e455f4b434f4c4255 (.node (.node (.node (.node (.node .leaf 0x4e4f4954415554434e55505f444e415f535245424d554e5f4d524f4649454e55435f4b434f4c4255 .leaf)
  0x534c4f424d59535f434952454d554e4148504c415f4c41434954414d454854414d5f4b434f4c4255 (.node .leaf 0x415f4445444e455458455f5348504152474f544349505f444e415f534c4f424d59535f4b434f4c4255 .leaf))
  0x415f4e4f49534e455458455f5348504152474f4544495f44454946494e555f4b4a435f4b434f4c4255 (.node (.node .leaf 0x425f4e4f49534e455458455f5348504152474f4544495f44454946494e555f4b4a435f4b434f4c4255 .leaf)
  0x435f4e4f49534e455458455f5348504152474f4544495f44454946494e555f4b4a435f4b434f4c4255 .leaf))
  0x445f4e4f49534e455458455f5348504152474f4544495f44454946494e555f4b4a435f4b434f4c4255 (.node (.node (.node .leaf 0x455f4e4f49534e455458455f5348504152474f4544495f44454946494e555f4b4a435f4b434f4c4255 .leaf)
  0x465f4e4f49534e455458455f5348504152474f4544495f44454946494e555f4b4a435f4b434f4c4255 .leaf)
  0x475f4e4f49534e455458455f5348504152474f4544495f44454946494e555f4b4a435f4b434f4c4255 (.node (.node .leaf 0x535245544341524148435f4e4f4954504952435345445f434948504152474f4544495f4b434f4c4255 .leaf)
  0x4e4f4954415554434e55505f444e415f534c4f424d59535f434948504152474f4544495f4b434f4c4255 .leaf)))
  0x534c4f52544e4f435f54414d524f465f4850594c474f524549485f4e414954505947455f4b434f4c4255 (.node (.node (.node (.node .leaf 0x53524f54415245504f5f4c41434954414d454854414d5f4c41544e454d454c505055535f4b434f4c4255 .leaf)
  0x415f534c4f424d59535f4c41434954414d454854414d5f53554f454e414c4c454353494d5f4b434f4c4255 .leaf)
  0x425f534c4f424d59535f4c41434954414d454854414d5f53554f454e414c4c454353494d5f4b434f4c4255 (.node (.node .leaf 0x4445444e455458455f534b52414d5f4c414349544952434149445f474e494e49424d4f435f4b434f4c4255 .leaf)
  0x5348504152474f544349505f444e415f534c4f424d59535f4c41544e454d454c505055535f4b434f4c4255 .leaf))
  0x53434942414c4c59535f4c414e494749524f42415f4e414944414e41435f44454946494e555f4b434f4c4255 (.node (.node (.node .leaf 0x5348504152474f544349505f444e415f534c4f424d59535f53554f454e414c4c454353494d5f4b434f4c4255 .leaf)
  0x534c4f424d59535f43495445424148504c415f4c41434954414d454854414d5f4349424152415f4b434f4c4255 .leaf)
  0x544e454d454c505055535f534b52414d5f4c414349544952434149445f474e494e49424d4f435f4b434f4c4255 (.node (.node .leaf 0x544e454d454c505055535f5348504152474f4544495f5954494c4942495441504d4f435f4b4a435f4b434f4c4255 .leaf)
  0x4445444e455458455f53434942414c4c59535f4c414e494749524f42415f4e414944414e41435f44454946494e555f4b434f4c4255 .leaf)))))))))

/-- UnicodeData/uscript_h.py: the names of the constants it assigns. -/
def scriptHeader : NameTree :=
 (.node (.node (.node (.node (.node (.node (.node (.node .leaf 0x49595f54504952435355 .leaf)
  0x4941565f54504952435355 (.node .leaf 0x4e41485f54504952435355 .leaf))
  0x4f414c5f54504952435355 (.node (.node .leaf 0x4f4b4e5f54504952435355 .leaf)
  0x4f524d5f54504952435355 .leaf))
  0x414d4f4c5f54504952435355 (.node (.node (.node .leaf 0x4157454e5f54504952435355 .leaf)
  0x494148545f54504952435355 .leaf)
  0x49444f4d5f54504952435355 (.node (.node .leaf 0x4d4148435f54504952435355 .leaf)
  0x4d4f48415f54504952435355 .leaf)))
  0x4e4f4f4d5f54504952435355 (.node (.node (.node (.node .leaf 0x4f41494d5f54504952435355 .leaf)
  0x4f4d414a5f54504952435355 (.node .leaf 0x534143555f54504952435355 .leaf))
  0x5553494c5f54504952435355 (.node (.node .leaf 0x414b4146415f54504952435355 .leaf)
  0x414e4e414c5f54504952435355 .leaf))
  0x4152474f445f54504952435355 (.node (.node (.node .leaf 0x415949524f5f54504952435355 .leaf)
  0x43494e55525f54504952435355 .leaf)
  0x44494855425f54504952435355 (.node (.node .leaf 0x45444e454d5f54504952435355 .leaf)
  0x454741534f5f54504952435355 .leaf))))
  0x48545249435f54504952435355 (.node (.node (.node (.node (.node .leaf 0x49524b41545f54504952435355 .leaf)
  0x4b415441425f54504952435355 (.node .leaf 0x4b454552475f54504952435355 .leaf))
  0x4c494d41545f54504952435355 (.node (.node .leaf 0x4d4148474f5f54504952435355 .leaf)
  0x4d414c44415f54504952435355 .leaf))
  0x4d554d41425f54504952435355 (.node (.node (.node .leaf 0x4e4954414c5f54504952435355 .leaf)
  0x52454d484b5f54504952435355 .leaf)
  0x55424d494c5f54504952435355 (.node (.node .leaf 0x554853554e5f54504952435355 .leaf)
  0x41484350454c5f54504952435355 .leaf)))
  0x414d4b4148435f54504952435355 (.node (.node (.node (.node .leaf 0x414e414148545f54504952435355 .leaf)
  0x4341495259535f54504952435355 (.node .leaf 0x4349424152415f54504952435355 .leaf))
  0x434948544f475f54504952435355 (.node (.node .leaf 0x434954504f435f54504952435355 .leaf)
  0x454c4c45504b5f54504952435355 .leaf))
  0x454c5f4941545f54504952435355 (.node (.node (.node .leaf 0x474e414a45525f54504952435355 .leaf)
  0x4941454c4f575f54504952435355 .leaf)
  0x4944495a45595f54504952435355 (.node (.node .leaf 0x4948444e49535f54504952435355 .leaf)
  0x49485449414b5f54504952435355 .leaf)))))
  0x494b4a4f484b5f54504952435355 (.node (.node (.node (.node (.node (.node .leaf 0x494d484152425f54504952435355 .leaf)
  0x4954415241535f54504952435355 (.node .leaf 0x4c55474e41485f54504952435355 .leaf))
  0x4e4145524f4b5f54504952435355 (.node (.node .leaf 0x4e414943594c5f54504952435355 .leaf)
  0x4e414944594c5f54504952435355 .leaf))
  0x4e41495241435f54504952435355 (.node (.node (.node .leaf 0x4e41525441485f54504952435355 .leaf)
  0x4e4f484b524f5f54504952435355 .leaf)
  0x4e4f4d4d4f435f54504952435355 (.node (.node .leaf 0x4f48434e41575f54504952435355 .leaf)
  0x5455474e41545f54504952435355 .leaf)))
  0x5547554c45545f54504952435355 (.node (.node (.node (.node .leaf 0x5745524245485f54504952435355 .leaf)
  0x4144414e4e414b5f54504952435355 (.node .leaf 0x414441524148535f54504952435355 .leaf))
  0x4148544e4152475f54504952435355 (.node (.node .leaf 0x414c41484e49535f54504952435355 .leaf)
  0x415455485249545f54504952435355 .leaf))
  0x41594e414d534f5f54504952435355 (.node (.node (.node .leaf 0x434941444e414d5f54504952435355 .leaf)
  0x4349414d594c455f54504952435355 .leaf)
  0x454c4c494152425f54504952435355 (.node (.node .leaf 0x474f4c414741545f54504952435355 .leaf)
  0x494c41474e45425f54504952435355 .leaf))))
  0x494e41544c554d5f54504952435355 (.node (.node (.node (.node (.node .leaf 0x4d4148444449535f54504952435355 .leaf)
  0x4e414944474f535f54504952435355 (.node .leaf 0x4e4149564148535f54504952435355 .leaf))
  0x4e415341424c455f54504952435355 (.node (.node .leaf 0x4e4154454249545f54504952435355 .leaf)
  0x4e4154534556415f54504952435355 .leaf))
  0x4e45484352414d5f54504952435355 (.node (.node (.node .leaf 0x4e45484352554a5f54504952435355 .leaf)
  0x4e574f4e4b4e555f54504952435355 .leaf)
  0x4f424d4f594f535f54504952435355 (.node (.node .leaf 0x4f4f4e554e41485f54504952435355 .leaf)
  0x52414d4e41594d5f54504952435355 .leaf)))
  0x524153414b414d5f54504952435355 (.node (.node (.node (.node .leaf 0x524157474e45545f54504952435355 .leaf)
  0x534c4f424d59535f54504952435355 .leaf)
  0x544552455345445f54504952435355 (.node (.node .leaf 0x544f49525059435f54504952435355 .leaf)
  0x414e4147415249485f54504952435355 .leaf))
  0x414e414b4154414b5f54504952435355 (.node (.node (.node .leaf 0x41505f53474148505f54504952435355 .leaf)
  0x41574e41424741545f54504952435355 .leaf)
  0x415f5241454e494c5f54504952435355 (.node (.node .leaf 0x425f5241454e494c5f54504952435355 .leaf)
  0x43494c4c495259435f54504952435355 .leaf))))))
  0x4349504f494854455f54504952435355 (.node (.node (.node (.node (.node (.node (.node .leaf 0x434954494f52454d5f54504952435355 .leaf)
  0x43495449524147555f54504952435355 (.node .leaf 0x45454b4f524548435f54504952435355 .leaf))
  0x4553454e4150414a5f54504952435355 (.node (.node .leaf 0x4553454e4156414a5f54504952435355 .leaf)
  0x4553454e494755425f54504952435355 .leaf))
  0x4553454e494c41425f54504952435355 (.node (.node (.node .leaf 0x4847414e494649545f54504952435355 .leaf)
  0x49484b554d5255475f54504952435355 .leaf)
  0x494b4948435f4c4f5f54504952435355 (.node (.node .leaf 0x494c5f484159414b5f54504952435355 .leaf)
  0x494e414a4148414d5f54504952435355 .leaf)))
  0x495255535455484b5f54504952435355 (.node (.node (.node (.node .leaf 0x49544152414a55475f54504952435355 .leaf)
  0x4e414541444e414d5f54504952435355 (.node .leaf 0x4e414947524f45475f54504952435355 .leaf))
  0x4e41494e454d52415f54504952435355 (.node (.node .leaf 0x4e41594f4c5055445f54504952435355 .leaf)
  0x4f464f4d4f504f425f54504952435355 .leaf))
  0x544549565f4941545f54504952435355 (.node (.node (.node .leaf 0x444554495245484e495f54504952435355 .leaf)
  0x454e4552594d4c41505f54504952435355 .leaf)
  0x4553454e41444e55535f54504952435355 (.node (.node .leaf 0x4841565f41535341425f54504952435355 .leaf)
  0x49444157414455484b5f54504952435355 .leaf))))
  0x494b55534b494148425f54504952435355 (.node (.node (.node (.node (.node .leaf 0x4d414c4159414c414d5f54504952435355 .leaf)
  0x4d524f4649454e55435f54504952435355 (.node .leaf 0x4e414541544142414e5f54504952435355 .leaf))
  0x4e41494c4f474e4f4d5f54504952435355 (.node (.node .leaf 0x4e41544952414d41535f54504952435355 .leaf)
  0x414245475f49484b414e5f54504952435355 .leaf))
  0x415254485341525541535f54504952435355 (.node (.node (.node .leaf 0x43494c4154495f444c4f5f54504952435355 .leaf)
  0x43494d5245505f444c4f5f54504952435355 .leaf)
  0x434954494c4f47414c475f54504952435355 (.node (.node .leaf 0x49485448534f5241484b5f54504952435355 .leaf)
  0x49524147414e415645445f54504952435355 .leaf)))
  0x4e4145414843494e414d5f54504952435355 (.node (.node (.node (.node .leaf 0x4e414943494e454f48505f54504952435355 .leaf)
  0x4e41494d5341524f48435f54504952435355 (.node .leaf 0x4f474e4f524f474e4f525f54504952435355 .leaf))
  0x45554c5f4941545f57454e5f54504952435355 (.node (.node .leaf 0x49524147414e49444e414e5f54504952435355 .leaf)
  0x495449435f474e415241575f54504952435355 .leaf))
  0x4e414944474f535f444c4f5f54504952435355 (.node (.node (.node .leaf 0x4e4149535245505f444c4f5f54504952435355 .leaf)
  0x4e4952444941464544454d5f54504952435355 .leaf)
  0x534c4f424d595353494c425f54504952435355 (.node (.node .leaf 0x5541485f4e49435f5541505f54504952435355 .leaf)
  0x5552554b415f53455649445f54504952435355 .leaf)))))
  0x43494c4541475f4e4954414c5f54504952435355 (.node (.node (.node (.node (.node (.node .leaf 0x45444f435f44494c41564e495f54504952435355 .leaf)
  0x474e45504d4f535f41524f535f54504952435355 (.node .leaf 0x474e49544952575f4e4749535f54504952435355 .leaf))
  0x474e4f4d485f4857414841505f54504952435355 (.node (.node .leaf 0x495247414e5f49544f4c59535f54504952435355 .leaf)
  0x4956414c4841505f4b4f4f425f54504952435355 .leaf))
  0x4b4559414d5f49455449454d5f54504952435355 (.node (.node (.node .leaf 0x49444e4f475f414c414a4e55475f54504952435355 .leaf)
  0x49444e4f475f4d41524153414d5f54504952435355 .leaf)
  0x494a4f4d455f534c4f424d59535f54504952435355 (.node (.node .leaf 0x4e41495241474e55485f444c4f5f54504952435355 .leaf)
  0x4e574f4e4b4e555f45474153555f54504952435355 .leaf)))
  0x5255544b4152465f4e4954414c5f54504952435355 (.node (.node (.node (.node .leaf 0x4341495259535f4e5245545341455f54504952435355 .leaf)
  0x4341495259535f4e5245545345575f54504952435355 (.node .leaf 0x444544554c4358455f45474153555f54504952435355 .leaf))
  0x4843454550535f454c42495349565f54504952435355 (.node (.node .leaf 0x4e41485f44454946494c504d49535f54504952435355 .leaf)
  0x5355444e495f4e415050415241485f54504952435355 .leaf))
  0x4159474e49484f525f4946494e41485f54504952435355 (.node (.node (.node .leaf 0x4956414c4841505f5245544c4153505f54504952435355 .leaf)
  0x4e41485f4c414e4f495449444152545f54504952435355 .leaf)
  0x4349414d4152415f4c41495245504d495f54504952435355 (.node (.node .leaf 0x4452414c4c4f505f434954454e4f48505f54504952435355 .leaf)
  0x4552415551535f52415a4142414e415a5f54504952435355 .leaf))))
  0x455649535255435f434954494f52454d5f54504952435355 (.node (.node (.node (.node (.node .leaf 0x4e414954505947455f4349544f4d45445f54504952435355 .leaf)
  0x4341495259535f4f4c45474e41525453455f54504952435355 (.node .leaf 0x4445444e454d4d4f4345525f45474153555f54504952435355 .leaf))
  0x4445444f434e455f544f4e5f45474153555f54504952435355 (.node (.node .leaf 0x4553555f444554494d494c5f45474153555f54504952435355 .leaf)
  0x4e4149424152415f4854524f4e5f444c4f5f54504952435355 .leaf))
  0x4e4149424152415f4854554f535f444c4f5f54504952435355 (.node (.node (.node .leaf 0x4e414954505947455f43495441524549485f54504952435355 .leaf)
  0x4f464f4d4f504f425f485449575f4e41485f54504952435355 .leaf)
  0x534850594c474f524549485f4e4159414d5f54504952435355 (.node (.node .leaf 0x4c414e4f49544152495053415f45474153555f54504952435355 .leaf)
  0x4e41494e41424c415f4e41495341435541435f54504952435355 .leaf)))
  0x4c414e494749524f42415f4e414944414e41435f54504952435355 (.node (.node (.node (.node .leaf 0x5345474155474e414c5f4e4554544952574e555f54504952435355 .leaf)
  0x5450495243535f4c4c414d535f4e415449484b5f54504952435355 .leaf)
  0x414e4147415249485f524f5f414e414b4154414b5f54504952435355 (.node (.node .leaf 0x534850594c474f524549485f434954494f52454d5f54504952435355 .leaf)
  0x534850594c474f524549485f4e414954505947455f54504952435355 .leaf))
  0x4956414c4841505f4c414e4f495450495243534e495f54504952435355 (.node (.node (.node .leaf 0x4e4f495441544f4e5f4c41434954414d454854414d5f54504952435355 .leaf)
  0x534850594c474f524549485f4e41494c4f54414e415f54504952435355 .leaf)
  0x474e4f4d485f455548434155505f474e454b4149594e5f54504952435355 (.node (.node .leaf 0x4e414948545241505f4c414e4f495450495243534e495f54504952435355 .leaf)
  0x43494c4c495259435f43494e4f56414c535f4843525548435f444c4f5f54504952435355 .leaf)))))))

end Verif.Data.Keys
