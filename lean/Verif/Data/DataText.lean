import Verif.Model.Table
/-!
# Texts of the data modules

Generated by tools/gen_datatext.py from the text of /repo. Lines are written as numbers, see Model/Lines.lean;
rows of tables hold 64 entries, least significant first.
-/
namespace Verif.Data

local notation "l" => Tree.leaf
local notation "n" => Tree.node

/-- UnicodeData/BidiPropsData.py:1-9 the lines. -/
def bidiText0 : List Nat :=
 [0x2222222f,
  0x4269646950726f7073446174612e70792c206261736564206f6e2075626964695f70726f70735f646174612e682066726f6d20494355,
  0x0,
  0x47656e657261746564206279204d6f64756c654275696c6465722e7079206f6e204175677573742032362c20323032312061742031313a32373a313320414d20485354,
  0x222222,
  0x0,
  0x75626964695f70726f70735f696e6465786573203d205b307831302c3078363765632c3078363230302c307832382c30783632302c30783863382c307831306163302c307831306432342c302c302c302c302c302c302c302c30783635303262365d,
  0x0,
  0x75626964695f70726f70735f74726965496e646578203d205b]

/-- UnicodeData/BidiPropsData.py:10-265 the lines. -/
def bidiText1 : List Nat :=
 [0x2020202030783337632c30783338342c30783338632c30783339342c30783361632c30783362342c30783362632c30783363342c30783339632c30783361342c30783339632c30783361342c30783339632c30783361342c30783339632c30783361342c,
  0x2020202030783339632c30783361342c30783339632c30783361342c30783363612c30783364322c30783364612c30783365322c30783365612c30783366322c30783365652c30783366362c30783366652c30783430362c30783430312c30783430392c,
  0x2020202030783339632c30783361342c30783339632c30783361342c30783431312c30783431392c30783339632c30783361342c30783339632c30783361342c30783339632c30783361342c30783431662c30783432372c30783432662c30783433372c,
  0x2020202030783433662c30783434372c30783434662c30783435372c30783435642c30783436352c30783436642c30783437352c30783437642c30783438352c30783438622c30783439332c30783439622c30783461332c30783461622c30783462332c,
  0x2020202030783462662c30783462622c30783463372c30783463662c30783433312c30783464662c30783465362c30783464372c30783465652c30783466302c30783466382c30783530302c30783530382c30783530392c30783531312c30783531392c,
  0x2020202030783532312c30783530392c30783532392c30783532652c30783532312c30783530392c30783533362c30783533652c30783530382c30783534362c30783534652c30783530302c30783535362c30783339632c30783535652c30783536322c,
  0x2020202030783536612c30783536632c30783537342c30783537632c30783530382c30783538342c30783538632c30783530302c30783431332c30783539302c30783531312c30783530302c30783530382c30783339632c30783539382c30783339632c,
  0x2020202030783339632c30783539652c30783561362c30783339632c30783339632c30783561612c30783562322c30783339632c30783562362c30783562642c30783339632c30783563352c30783563642c30783564342c30783535352c30783339632c,
  0x2020202030783339632c30783564632c30783565342c30783565632c30783566342c30783339632c30783339632c30783339632c30783339632c30783339632c30783339632c30783339632c30783339632c30783339632c30783339632c30783339632c,
  0x2020202030783339632c30783339632c30783339632c30783339632c30783339632c30783339632c30783339632c30783339632c30783339632c30783339632c30783566632c30783339632c30783630342c30783339632c30783339632c30783339632c,
  0x2020202030783630632c30783339632c30783339632c30783339632c30783339632c30783339632c30783339632c30783339632c30783339632c30783339632c30783339632c30783339632c30783339632c30783339632c30783339632c30783339632c,
  0x2020202030783339632c30783339632c30783339632c30783339632c30783631342c30783339632c30783339632c30783339632c30783631632c30783631632c30783531352c30783531352c30783339632c30783632322c30783632612c30783630342c,
  0x2020202030783634302c30783633322c30783633322c30783634382c30783634662c30783633382c30783339632c30783339632c30783339632c30783635372c30783635662c30783339632c30783339632c30783339632c30783636312c30783636392c,
  0x2020202030783637312c30783339632c30783637382c30783638302c30783339632c30783638382c30783536622c30783339632c30783534352c30783639302c30783535362c30783639382c30783431332c30783661302c30783339632c30783661372c,
  0x2020202030783339632c30783661632c30783339632c30783339632c30783339632c30783339632c30783662322c30783662612c30783339632c30783339632c30783339632c30783339632c30783339632c30783339632c30783365612c30783663322c,
  0x2020202030783339632c30783339632c30783339632c30783339632c30783339632c30783339632c30783339632c30783339632c30783339632c30783339632c30783339632c30783339632c30783339632c30783663612c30783664322c30783664362c,
  0x2020202030783665652c30783666342c30783664652c30783665362c30783666632c30783730342c30783730382c30783564372c30783731302c30783731382c30783732302c30783339632c30783732382c30783636392c30783636392c30783636392c,
  0x2020202030783733382c30783734302c30783734382c30783735302c30783735352c30783735642c30783736352c30783733302c30783736642c30783737352c30783339632c30783737622c30783738322c30783636392c30783636392c30783636392c,
  0x2020202030783636392c30783538322c30783738382c30783636392c30783739302c30783339632c30783339632c30783636362c30783636392c30783636392c30783636392c30783636392c30783636392c30783636392c30783636392c30783636392c,
  0x2020202030783636392c30783636392c30783636392c30783636392c30783636392c30783739382c30783636392c30783636392c30783636392c30783636392c30783636392c30783739652c30783636392c30783636392c30783761362c30783761652c,
  0x2020202030783339632c30783339632c30783339632c30783339632c30783339632c30783339632c30783339632c30783339632c30783636392c30783636392c30783636392c30783636392c30783762652c30783763362c30783763652c30783762362c,
  0x2020202030783764652c30783765362c30783765652c30783766352c30783766632c30783830342c30783830382c30783764362c30783636392c30783636392c30783636392c30783831302c30783831362c30783636392c30783636392c30783831632c,
  0x2020202030783339632c30783339632c30783339632c30783339632c30783339632c30783339632c30783339632c30783832342c30783339632c30783339632c30783339632c30783832632c30783339632c30783339632c30783339632c30783365612c,
  0x2020202030783833342c30783833632c30783834302c30783339632c30783834382c30783636392c30783636392c30783636632c30783636392c30783636392c30783636392c30783636392c30783636392c30783636392c30783834662c30783835352c,
  0x2020202030783836352c30783835642c30783339632c30783339632c30783836642c30783630632c30783339632c30783363332c30783339632c30783339632c30783339632c30783339632c30783339632c30783339632c30783636392c30783832622c,
  0x2020202030783364312c30783339632c30783837352c30783837642c30783339632c30783838352c30783838642c30783339632c30783339632c30783339632c30783339632c30783839312c30783339632c30783339632c30783636312c30783363322c,
  0x2020202030783339632c30783339632c30783339632c30783339632c30783339632c30783339632c30783339632c30783339632c30783339632c30783339632c30783339632c30783339632c30783339632c30783339632c30783339632c30783339632c,
  0x2020202030783339632c30783339632c30783339632c30783339632c30783339632c30783339632c30783339632c30783339632c30783339632c30783339632c30783339632c30783339632c30783339632c30783339632c30783339632c30783339632c,
  0x2020202030783339632c30783339632c30783339632c30783339632c30783339632c30783339632c30783339632c30783339632c30783339632c30783339632c30783339632c30783339632c30783339632c30783339632c30783339632c30783339632c,
  0x2020202030783339632c30783339632c30783339632c30783339632c30783339632c30783339632c30783339632c30783339632c30783339632c30783339632c30783339632c30783339632c30783339632c30783339632c30783339632c30783339632c,
  0x2020202030783339632c30783339632c30783339632c30783339632c30783339632c30783339632c30783339632c30783339632c30783339632c30783339632c30783339632c30783339632c30783339632c30783339632c30783339632c30783339632c,
  0x2020202030783339632c30783339632c30783339632c30783339632c30783339632c30783339632c30783339632c30783339632c30783339632c30783339632c30783339632c30783339632c30783339632c30783339632c30783339632c30783339632c,
  0x2020202030783339632c30783339632c30783339632c30783339632c30783339632c30783339632c30783339632c30783339632c30783339632c30783339632c30783339632c30783339632c30783339632c30783339632c30783339632c30783339632c,
  0x2020202030783339632c30783339632c30783339632c30783339632c30783339632c30783339632c30783339632c30783339632c30783339632c30783339632c30783339632c30783339632c30783339632c30783339632c30783339632c30783339632c,
  0x2020202030783339632c30783339632c30783339632c30783339632c30783339632c30783339632c30783339632c30783339632c30783339632c30783339632c30783339632c30783339632c30783339632c30783339632c30783339632c30783339632c,
  0x2020202030783339632c30783339632c30783339632c30783339632c30783339632c30783339632c30783339632c30783339632c30783339632c30783339632c30783339632c30783339632c30783339632c30783339632c30783339632c30783339632c,
  0x2020202030783339632c30783339632c30783339632c30783339632c30783339632c30783339632c30783339632c30783339632c30783339632c30783339632c30783339632c30783339632c30783339632c30783339632c30783339632c30783339632c,
  0x2020202030783339632c30783339632c30783339632c30783339632c30783339632c30783339632c30783339632c30783339632c30783339632c30783339632c30783339632c30783339632c30783339632c30783339632c30783339632c30783339632c,
  0x2020202030783339632c30783339632c30783339632c30783339632c30783339632c30783339632c30783339632c30783339632c30783339632c30783339632c30783339632c30783339632c30783339632c30783339632c30783636392c30783636392c,
  0x2020202030783339632c30783339632c30783339632c30783339632c30783339632c30783339632c30783339632c30783339632c30783339632c30783339632c30783339632c30783339632c30783339632c30783339632c30783339632c30783339632c,
  0x2020202030783339632c30783339632c30783339632c30783339632c30783339632c30783339632c30783339632c30783339632c30783339632c30783339632c30783339632c30783339632c30783339632c30783339632c30783339632c30783339632c,
  0x2020202030783339632c30783339632c30783339632c30783339632c30783339632c30783339632c30783339632c30783339632c30783339632c30783339632c30783339632c30783339632c30783339632c30783339632c30783339632c30783339632c,
  0x2020202030783339632c30783339632c30783339632c30783339632c30783339632c30783339632c30783339632c30783339632c30783339632c30783339632c30783339632c30783339632c30783339632c30783339632c30783339632c30783339632c,
  0x2020202030783339632c30783339632c30783339632c30783339632c30783339632c30783339632c30783339632c30783339632c30783339632c30783339632c30783339632c30783339632c30783339632c30783339632c30783339632c30783339632c,
  0x2020202030783339632c30783339632c30783339632c30783339632c30783339632c30783339632c30783339632c30783339632c30783339632c30783339632c30783339632c30783339632c30783339632c30783339632c30783339632c30783339632c,
  0x2020202030783339632c30783339632c30783339632c30783339632c30783339632c30783339632c30783339632c30783339632c30783339632c30783339632c30783339632c30783339632c30783339632c30783339632c30783339632c30783339632c,
  0x2020202030783339632c30783339632c30783339632c30783339632c30783339632c30783339632c30783339632c30783339632c30783339632c30783339632c30783339632c30783339632c30783339632c30783339632c30783339632c30783339632c,
  0x2020202030783339632c30783339632c30783339632c30783339632c30783339632c30783339632c30783339632c30783339632c30783339632c30783339632c30783339632c30783339632c30783339632c30783339632c30783339632c30783339632c,
  0x2020202030783339632c30783339632c30783339632c30783339632c30783339632c30783339632c30783339632c30783339632c30783339632c30783339632c30783339632c30783339632c30783339632c30783339632c30783339632c30783339632c,
  0x2020202030783339632c30783339632c30783339632c30783339632c30783339632c30783339632c30783339632c30783339632c30783339632c30783339632c30783339632c30783339632c30783339632c30783339632c30783339632c30783339632c,
  0x2020202030783339632c30783339632c30783339632c30783339632c30783339632c30783339632c30783339632c30783339632c30783339632c30783339632c30783339632c30783339632c30783339632c30783339632c30783339632c30783339632c,
  0x2020202030783339632c30783339632c30783339632c30783339632c30783339632c30783339632c30783339632c30783339632c30783339632c30783339632c30783339632c30783339632c30783339632c30783339632c30783339632c30783339632c,
  0x2020202030783339632c30783339632c30783339632c30783339632c30783339632c30783339632c30783339632c30783339632c30783339632c30783339632c30783339632c30783339632c30783339632c30783339632c30783339632c30783339632c,
  0x2020202030783339632c30783339632c30783339632c30783339632c30783339632c30783339632c30783339632c30783339632c30783339632c30783339632c30783339632c30783339632c30783339632c30783339632c30783339632c30783339632c,
  0x2020202030783339632c30783339632c30783339632c30783339632c30783339632c30783339632c30783339632c30783339632c30783339632c30783339632c30783339632c30783339632c30783339632c30783339632c30783339632c30783339632c,
  0x2020202030783339632c30783339632c30783339632c30783339632c30783339632c30783339632c30783339632c30783339632c30783339632c30783339632c30783339632c30783339632c30783339632c30783339632c30783339632c30783339632c,
  0x2020202030783339632c30783339632c30783339632c30783339632c30783339632c30783339632c30783339632c30783339632c30783339632c30783339632c30783339632c30783339632c30783339632c30783339632c30783339632c30783339632c,
  0x2020202030783339632c30783339632c30783339632c30783339632c30783339632c30783339632c30783339632c30783339632c30783339632c30783339632c30783339632c30783339632c30783339632c30783339632c30783339632c30783339632c,
  0x2020202030783339632c30783339632c30783339632c30783339632c30783339632c30783339632c30783339632c30783339632c30783339632c30783339632c30783339632c30783339632c30783339632c30783339632c30783339632c30783339632c,
  0x2020202030783339632c30783339632c30783339632c30783339632c30783339632c30783339632c30783339632c30783339632c30783339632c30783339632c30783339632c30783339632c30783339632c30783339632c30783339632c30783339632c,
  0x2020202030783339632c30783339632c30783339632c30783339632c30783339632c30783339632c30783339632c30783339632c30783339632c30783339632c30783339632c30783339632c30783339632c30783339632c30783339632c30783339632c,
  0x2020202030783339632c30783339632c30783339632c30783339632c30783339632c30783339632c30783339632c30783339632c30783339632c30783339632c30783339632c30783339632c30783339632c30783339632c30783339632c30783339632c,
  0x2020202030783339632c30783339632c30783339632c30783339632c30783339632c30783339632c30783339632c30783339632c30783339632c30783339632c30783339632c30783339632c30783339632c30783339632c30783339632c30783339632c,
  0x2020202030783339632c30783339632c30783339632c30783339632c30783339632c30783339632c30783339632c30783339632c30783339632c30783339632c30783339632c30783339632c30783339632c30783339632c30783339632c30783339632c,
  0x2020202030783339632c30783339632c30783339632c30783339632c30783339632c30783339632c30783339632c30783339632c30783339632c30783339632c30783339632c30783339632c30783339632c30783339632c30783339632c30783339632c,
  0x2020202030783339632c30783339632c30783339632c30783339632c30783339632c30783339632c30783339632c30783339632c30783339632c30783339632c30783339632c30783339632c30783339632c30783339632c30783339632c30783339632c,
  0x2020202030783339632c30783339632c30783339632c30783339632c30783339632c30783339632c30783339632c30783339632c30783339632c30783339632c30783339632c30783339632c30783339632c30783339632c30783339632c30783339632c,
  0x2020202030783339632c30783339632c30783339632c30783339632c30783339632c30783339632c30783339632c30783339632c30783339632c30783339632c30783339632c30783339632c30783339632c30783339632c30783339632c30783339632c,
  0x2020202030783339632c30783339632c30783339632c30783339632c30783339632c30783339632c30783339632c30783339632c30783339632c30783339632c30783339632c30783339632c30783339632c30783339632c30783339632c30783339632c,
  0x2020202030783339632c30783339632c30783339632c30783339632c30783339632c30783339632c30783339632c30783339632c30783339632c30783339632c30783339632c30783339632c30783339632c30783339632c30783339632c30783339632c,
  0x2020202030783339632c30783339632c30783339632c30783339632c30783339632c30783339632c30783339632c30783339632c30783339632c30783339632c30783339632c30783339632c30783339632c30783339632c30783339632c30783339632c,
  0x2020202030783339632c30783339632c30783339632c30783339632c30783339632c30783339632c30783339632c30783339632c30783339632c30783339632c30783339632c30783339632c30783339632c30783339632c30783339632c30783339632c,
  0x2020202030783339632c30783339632c30783339632c30783339632c30783339632c30783339632c30783339632c30783339632c30783339632c30783339632c30783339632c30783339632c30783339632c30783339632c30783339632c30783339632c,
  0x2020202030783339632c30783339632c30783339632c30783339632c30783339632c30783339632c30783339632c30783339632c30783339632c30783339632c30783339632c30783339632c30783339632c30783339632c30783339632c30783339632c,
  0x2020202030783339632c30783339632c30783339632c30783339632c30783339632c30783339632c30783339632c30783339632c30783339632c30783339632c30783339632c30783339632c30783339632c30783339632c30783339632c30783339632c,
  0x2020202030783339632c30783339632c30783339632c30783339632c30783339632c30783339632c30783339632c30783339632c30783339632c30783339632c30783339632c30783339632c30783339632c30783339632c30783339632c30783339632c,
  0x2020202030783339632c30783339632c30783339632c30783339632c30783339632c30783339632c30783339632c30783339632c30783339632c30783339632c30783339632c30783339632c30783339632c30783339632c30783339632c30783339632c,
  0x2020202030783339632c30783339632c30783339632c30783339632c30783339632c30783339632c30783339632c30783339632c30783339632c30783339632c30783339632c30783339632c30783339632c30783339632c30783339632c30783339632c,
  0x2020202030783339632c30783339632c30783339632c30783339632c30783339632c30783339632c30783339632c30783339632c30783339632c30783339632c30783339632c30783339632c30783339632c30783339632c30783339632c30783339632c,
  0x2020202030783339632c30783339632c30783339632c30783339632c30783339632c30783339632c30783339632c30783339632c30783339632c30783339632c30783339632c30783339632c30783339632c30783339632c30783339632c30783339632c,
  0x2020202030783339632c30783339632c30783339632c30783339632c30783339632c30783339632c30783339632c30783339632c30783339632c30783339632c30783339632c30783339632c30783339632c30783339632c30783339632c30783339632c,
  0x2020202030783339632c30783339632c30783339632c30783339632c30783339632c30783339632c30783339632c30783339632c30783339632c30783339632c30783339632c30783339632c30783339632c30783339632c30783339632c30783339632c,
  0x2020202030783339632c30783339632c30783339632c30783339632c30783837352c30783636392c30783538322c30783339632c30783339632c30783339632c30783339632c30783339632c30783339632c30783339632c30783339632c30783339632c,
  0x2020202030783839382c30783339632c30783339632c30783839642c30783536632c30783339632c30783339632c30783562382c30783636392c30783636302c30783339632c30783339632c30783861352c30783339632c30783339632c30783339632c,
  0x2020202030783861642c30783862342c30783633322c30783862632c30783339632c30783339632c30783538652c30783863342c30783339632c30783863632c30783864332c30783339632c30783465652c30783864382c30783339632c30783530372c,
  0x2020202030783339632c30783865302c30783865382c30783530392c30783339632c30783865632c30783530382c30783866342c30783339632c30783339632c30783339632c30783866612c30783339632c30783339632c30783339632c30783930312c,
  0x2020202030783339632c30783339632c30783339632c30783339632c30783339632c30783339632c30783339632c30783339632c30783339632c30783339632c30783339632c30783339632c30783339632c30783339632c30783339632c30783339632c,
  0x2020202030783339632c30783339632c30783339632c30783339632c30783339632c30783339632c30783339632c30783339632c30783339632c30783339632c30783339632c30783339632c30783339632c30783339632c30783339632c30783339632c,
  0x2020202030783339632c30783339632c30783339632c30783339632c30783339632c30783339632c30783339632c30783339632c30783339632c30783339632c30783339632c30783339632c30783339632c30783339632c30783339632c30783339632c,
  0x2020202030783339632c30783339632c30783339632c30783339632c30783339632c30783339632c30783339632c30783339632c30783339632c30783339632c30783339632c30783339632c30783339632c30783339632c30783339632c30783339632c,
  0x2020202030783339632c30783339632c30783339632c30783339632c30783339632c30783339632c30783339632c30783339632c30783339632c30783339632c30783339632c30783339632c30783339632c30783339632c30783339632c30783339632c,
  0x2020202030783339632c30783339632c30783339632c30783339632c30783339632c30783339632c30783339632c30783339632c30783339632c30783339632c30783339632c30783339632c30783339632c30783339632c30783339632c30783339632c,
  0x2020202030783339632c30783339632c30783339632c30783339632c30783339632c30783339632c30783339632c30783339632c30783339632c30783339632c30783339632c30783339632c30783339632c30783339632c30783339632c30783339632c,
  0x2020202030783339632c30783339632c30783339632c30783339632c30783339632c30783339632c30783339632c30783339632c30783339632c30783339632c30783339632c30783339632c30783339632c30783339632c30783339632c30783339632c,
  0x2020202030783339632c30783339632c30783339632c30783339632c30783339632c30783339632c30783339632c30783339632c30783339632c30783339632c30783339632c30783339632c30783339632c30783339632c30783339632c30783339632c,
  0x2020202030783339632c30783339632c30783339632c30783339632c30783339632c30783339632c30783339632c30783339632c30783339632c30783339632c30783339632c30783339632c30783339632c30783339632c30783339632c30783339632c,
  0x2020202030783339632c30783339632c30783339632c30783339632c30783339632c30783339632c30783339632c30783339632c30783339632c30783339632c30783339632c30783339632c30783339632c30783339632c30783339632c30783339632c,
  0x2020202030783339632c30783339632c30783339632c30783339632c30783339632c30783339632c30783339632c30783339632c30783339632c30783339632c30783339632c30783339632c30783339632c30783339632c30783339632c30783339632c,
  0x2020202030783339632c30783339632c30783339632c30783339632c30783339632c30783339632c30783339632c30783339632c30783339632c30783339632c30783339632c30783339632c30783339632c30783339632c30783339632c30783339632c,
  0x2020202030783339632c30783339632c30783339632c30783339632c30783339632c30783339632c30783339632c30783339632c30783339632c30783339632c30783339632c30783339632c30783339632c30783339632c30783339632c30783339632c,
  0x2020202030783339632c30783339632c30783339632c30783339632c30783339632c30783339632c30783339632c30783339632c30783339632c30783339632c30783339632c30783339632c30783339632c30783339632c30783339632c30783339632c,
  0x2020202030783339632c30783339632c30783339632c30783339632c30783339632c30783339632c30783339632c30783339632c30783339632c30783339632c30783339632c30783339632c30783339632c30783339632c30783339632c30783339632c,
  0x2020202030783339632c30783339632c30783339632c30783339632c30783339632c30783339632c30783339632c30783339632c30783339632c30783339632c30783339632c30783339632c30783339632c30783339632c30783339632c30783339632c,
  0x2020202030783339632c30783339632c30783339632c30783339632c30783339632c30783339632c30783339632c30783339632c30783339632c30783339632c30783339632c30783339632c30783339632c30783339632c30783339632c30783339632c,
  0x2020202030783339632c30783339632c30783339632c30783339632c30783339632c30783339632c30783339632c30783339632c30783339632c30783339632c30783339632c30783339632c30783339632c30783339632c30783339632c30783339632c,
  0x2020202030783339632c30783339632c30783339632c30783339632c30783339632c30783339632c30783339632c30783339632c30783339632c30783339632c30783339632c30783339632c30783339632c30783339632c30783339632c30783339632c,
  0x2020202030783339632c30783339632c30783339632c30783339632c30783339632c30783339632c30783339632c30783339632c30783339632c30783339632c30783339632c30783339632c30783339632c30783339632c30783339632c30783339632c,
  0x2020202030783339632c30783339632c30783339632c30783339632c30783339632c30783339632c30783339632c30783339632c30783339632c30783339632c30783339632c30783339632c30783339632c30783339632c30783339632c30783339632c,
  0x2020202030783339632c30783339632c30783339632c30783339632c30783339632c30783339632c30783339632c30783339632c30783339632c30783339632c30783339632c30783339632c30783339632c30783339632c30783339632c30783339632c,
  0x2020202030783339632c30783339632c30783339632c30783339632c30783339632c30783339632c30783339632c30783339632c30783339632c30783339632c30783339632c30783339632c30783339632c30783339632c30783339632c30783339632c,
  0x2020202030783339632c30783339632c30783339632c30783339632c30783339632c30783339632c30783339632c30783339632c30783339632c30783339632c30783339632c30783339632c30783339632c30783339632c30783339632c30783339632c,
  0x2020202030783339632c30783339632c30783339632c30783339632c30783339632c30783339632c30783339632c30783339632c30783339632c30783339632c30783339632c30783339632c30783339632c30783339632c30783339632c30783339632c,
  0x2020202030783339632c30783339632c30783339632c30783339632c30783339632c30783339632c30783339632c30783339632c30783339632c30783339632c30783339632c30783339632c30783339632c30783339632c30783339632c30783339632c,
  0x2020202030783339632c30783339632c30783339632c30783339632c30783339632c30783339632c30783339632c30783339632c30783339632c30783339632c30783339632c30783339632c30783339632c30783339632c30783339632c30783339632c,
  0x2020202030783339632c30783339632c30783339632c30783339632c30783339632c30783339632c30783339632c30783339632c30783339632c30783339632c30783339632c30783339632c30783339632c30783339632c30783339632c30783339632c,
  0x2020202030783339632c30783339632c30783339632c30783339632c30783339632c30783339632c30783339632c30783339632c30783339632c30783339632c30783339632c30783339632c30783339632c30783339632c30783339632c30783339632c,
  0x2020202030783339632c30783339632c30783339632c30783339632c30783339632c30783339632c30783339632c30783339632c30783339632c30783339632c30783339632c30783339632c30783339632c30783339632c30783339632c30783339632c,
  0x2020202030783339632c30783339632c30783339632c30783339632c30783339632c30783339632c30783339632c30783339632c30783339632c30783339632c30783339632c30783339632c30783339632c30783339632c30783339632c30783339632c,
  0x2020202030783339632c30783339632c30783339632c30783339632c30783339632c30783339632c30783339632c30783339632c30783339632c30783339632c30783339632c30783339632c30783339632c30783339632c30783339632c30783339632c,
  0x2020202030783339632c30783339632c30783339632c30783339632c30783339632c30783339632c30783339632c30783339632c30783339632c30783339632c30783339632c30783339632c30783339632c30783339632c30783339632c30783339632c,
  0x2020202030783339632c30783339632c30783339632c30783339632c30783339632c30783339632c30783339632c30783339632c30783339632c30783339632c30783339632c30783339632c30783339632c30783339632c30783339632c30783339632c,
  0x2020202030783339632c30783339632c30783339632c30783339632c30783339632c30783339632c30783339632c30783339632c30783339632c30783339632c30783339632c30783339632c30783339632c30783339632c30783339632c30783339632c,
  0x2020202030783339632c30783339632c30783339632c30783339632c30783339632c30783339632c30783339632c30783339632c30783339632c30783339632c30783339632c30783339632c30783339632c30783339632c30783339632c30783339632c,
  0x2020202030783339632c30783339632c30783339632c30783339632c30783339632c30783339632c30783339632c30783339632c30783339632c30783339632c30783339632c30783339632c30783339632c30783339632c30783339632c30783339632c,
  0x2020202030783339632c30783339632c30783339632c30783339632c30783339632c30783339632c30783339632c30783339632c30783339632c30783339632c30783339632c30783339632c30783339632c30783339632c30783339632c30783339632c,
  0x2020202030783339632c30783339632c30783339632c30783339632c30783339632c30783339632c30783339632c30783339632c30783931352c30783930392c30783930642c30783439622c30783439622c30783439622c30783439622c30783439622c,
  0x2020202030783439622c30783439622c30783439622c30783439622c30783439622c30783439622c30783439622c30783439622c30783439622c30783931642c30783439622c30783439622c30783439622c30783439622c30783932352c30783932392c,
  0x2020202030783933312c30783933392c30783933642c30783934352c30783439622c30783439622c30783439622c30783934392c30783935312c30783338632c30783935392c30783936312c30783339632c30783339632c30783339632c30783936392c,
  0x2020202030783339632c30783339632c30783339632c30783339632c30783339632c30783339632c30783339632c30783339632c30783339632c30783339632c30783339632c30783339632c30783339632c30783339632c30783339632c30783339632c,
  0x2020202030783339632c30783339632c30783339632c30783339632c30783339632c30783339632c30783339632c30783339632c30783339632c30783339632c30783339632c30783339632c30783339632c30783339632c30783339632c30783339632c,
  0x2020202030786537302c30786537302c30786562302c30786566302c30786537302c30786537302c30786537302c30786537302c30786537302c30786537302c30786632382c30786636382c30786661382c30786662382c30786666382c3078313030342c,
  0x2020202030786537302c30786537302c3078313034342c30786537302c30786537302c30786537302c3078313037632c3078313062632c3078313066632c3078313133632c3078313137342c3078313162342c3078313166342c3078313232632c3078313236632c3078313261632c,
  0x2020202030786134302c30786138302c30786163302c30786166662c30783161302c30783161302c30786233662c30783161302c30783161302c30783161302c30783161302c30783161302c30783161302c30786236382c30783161302c30783161302c,
  0x2020202030783161302c30783161302c30783161302c30783161302c30783161302c30783161302c30783161302c30786261382c30783161302c30783161302c30786264642c30786331642c30786335642c30786339642c30786364642c30786431642c,
  0x2020202030783161302c30783161302c30783161302c30783161302c30783161302c30783161302c30783161302c30783161302c30783161302c30783161302c30783161302c30783161302c30783161302c30783161302c30783161302c30783161302c,
  0x2020202030783161302c30783161302c30783161302c30783161302c30783161302c30783161302c30783161302c30783161302c30783161302c30783161302c30783161302c30783161302c30783161302c30783161302c30783161302c30786435642c,
  0x2020202030783161302c30783161302c30783161302c30783161302c30783161302c30783161302c30783161302c30783161302c30783161302c30783161302c30783161302c30783161302c30783161302c30783161302c30783161302c30783161302c,
  0x2020202030783161302c30783161302c30783161302c30783161302c30783161302c30783161302c30783161302c30783161302c30783161302c30783161302c30783161302c30783161302c30783161302c30783161302c30783161302c30786435642c,
  0x2020202030783161302c30783161302c30783161302c30783161302c30783161302c30783161302c30783161302c30783161302c30783161302c30783161302c30783161302c30783161302c30783161302c30783161302c30783161302c30783161302c,
  0x2020202030783161302c30783161302c30783161302c30783161302c30783161302c30783161302c30783161302c30783161302c30783161302c30783161302c30783161302c30783161302c30783161302c30783161302c30783161302c30786435642c,
  0x2020202030783161302c30783161302c30783161302c30783161302c30783161302c30783161302c30783161302c30783161302c30783161302c30783161302c30783161302c30783161302c30783161302c30783161302c30783161302c30783161302c,
  0x2020202030783161302c30783161302c30783161302c30783161302c30783161302c30783161302c30783161302c30783161302c30783161302c30783161302c30783161302c30783161302c30783161302c30783161302c30783161302c30786435642c,
  0x2020202030783161302c30783161302c30783161302c30783161302c30783161302c30783161302c30783161302c30783161302c30783161302c30783161302c30783161302c30783161302c30783161302c30783161302c30783161302c30783161302c,
  0x2020202030783161302c30783161302c30783161302c30783161302c30783161302c30783161302c30783161302c30783161302c30783161302c30783161302c30783161302c30783161302c30783161302c30783161302c30783161302c30786435642c,
  0x2020202030783161302c30783161302c30783161302c30783161302c30783161302c30783161302c30783161302c30783161302c30783161302c30783161302c30783161302c30783161302c30783161302c30783161302c30783161302c30783161302c,
  0x2020202030783161302c30783161302c30783161302c30783161302c30783161302c30783161302c30783161302c30783161302c30783161302c30783161302c30783161302c30783161302c30783161302c30783161302c30783161302c30786435642c,
  0x2020202030783161302c30783161302c30783161302c30783161302c30783161302c30783161302c30783161302c30783161302c30783161302c30783161302c30783161302c30783161302c30783161302c30783161302c30783161302c30783161302c,
  0x2020202030783161302c30783161302c30783161302c30783161302c30783161302c30783161302c30783161302c30783161302c30783161302c30783161302c30783161302c30783161302c30783161302c30783161302c30783161302c30786435642c,
  0x2020202030783161302c30783161302c30783161302c30783161302c30783161302c30783161302c30783161302c30783161302c30783161302c30783161302c30783161302c30783161302c30783161302c30783161302c30783161302c30783161302c,
  0x2020202030783161302c30783161302c30783161302c30783161302c30783161302c30783161302c30783161302c30783161302c30783161302c30783161302c30783161302c30783161302c30783161302c30783161302c30783161302c30786435642c,
  0x2020202030783161302c30783161302c30783161302c30783161302c30783161302c30783161302c30783161302c30783161302c30783161302c30783161302c30783161302c30783161302c30783161302c30783161302c30783161302c30783161302c,
  0x2020202030783161302c30783161302c30783161302c30783161302c30783161302c30783161302c30783161302c30783161302c30783161302c30783161302c30783161302c30783161302c30783161302c30783161302c30783161302c30786435642c,
  0x2020202030783161302c30783161302c30783161302c30783161302c30783161302c30783161302c30783161302c30783161302c30783161302c30783161302c30783161302c30783161302c30783161302c30783161302c30783161302c30783161302c,
  0x2020202030783161302c30783161302c30783161302c30783161302c30783161302c30783161302c30783161302c30783161302c30783161302c30783161302c30783161302c30783161302c30783161302c30783161302c30783161302c30786435642c,
  0x2020202030783161302c30783161302c30783161302c30783161302c30783161302c30783161302c30783161302c30783161302c30783161302c30783161302c30783161302c30783161302c30783161302c30783161302c30783161302c30783161302c,
  0x2020202030783161302c30783161302c30783161302c30783161302c30783161302c30783161302c30783161302c30783161302c30783161302c30783161302c30783161302c30783161302c30783161302c30783161302c30783161302c30786435642c,
  0x2020202030783161302c30783161302c30783161302c30783161302c30783161302c30783161302c30783161302c30783161302c30783161302c30783161302c30783161302c30783161302c30783161302c30783161302c30783161302c30783161302c,
  0x2020202030783161302c30783161302c30783161302c30783161302c30783161302c30783161302c30783161302c30783161302c30783161302c30783161302c30783161302c30783161302c30783161302c30783161302c30783161302c30786435642c,
  0x2020202030786439642c30786461642c30783161302c30783161302c30783161302c30783161302c30783161302c30783161302c30783161302c30783161302c30783161302c30783161302c30783161302c30783161302c30783161302c30783161302c,
  0x2020202030783161302c30783161302c30783161302c30783161302c30783161302c30783161302c30783161302c30783161302c30783161302c30783161302c30783161302c30783161302c30783161302c30783161302c30783161302c30786435642c,
  0x2020202030783161302c30783161302c30783161302c30783161302c30783161302c30783161302c30783161302c30783161302c30783161302c30783161302c30783161302c30783161302c30783161302c30783161302c30783161302c30783161302c,
  0x2020202030783161302c30783161302c30783161302c30783161302c30783161302c30783161302c30783161302c30783161302c30783161302c30783161302c30783161302c30783161302c30783161302c30783161302c30783161302c30786435642c,
  0x2020202030783161302c30783161302c30783161302c30783161302c30783161302c30783161302c30783161302c30783161302c30783161302c30783161302c30783161302c30783161302c30783161302c30783161302c30783161302c30783161302c,
  0x2020202030783161302c30783161302c30783161302c30783161302c30783161302c30783161302c30783161302c30783161302c30783161302c30783161302c30783161302c30783161302c30783161302c30783161302c30783161302c30786435642c,
  0x2020202030783339632c30783339632c30783339632c30783339632c30783339632c30783339632c30783339632c30783339632c30783937312c30783339632c30783636392c30783636392c30783937392c30783630632c30783339632c30783530312c,
  0x2020202030783339632c30783339632c30783339632c30783339632c30783339632c30783339632c30783339632c30783938312c30783339632c30783339632c30783339632c30783938382c30783339632c30783339632c30783339632c30783339632c,
  0x2020202030783339632c30783339632c30783339632c30783339632c30783339632c30783339632c30783339632c30783339632c30783339632c30783339632c30783339632c30783339632c30783339632c30783339632c30783339632c30783339632c,
  0x2020202030783339632c30783339632c30783339632c30783339632c30783339632c30783339632c30783339632c30783339632c30783339632c30783339632c30783339632c30783339632c30783339632c30783339632c30783339632c30783339632c,
  0x2020202030783433312c30783433312c30783433312c30783433312c30783433312c30783433312c30783433312c30783433312c30783939302c30783433312c30783433312c30783433312c30783433312c30783433312c30783433312c30783433312c,
  0x2020202030783939382c30783939632c30783433312c30783433312c30783433312c30783433312c30783961632c30783961342c30783433312c30783962342c30783433312c30783433312c30783962632c30783963322c30783433312c30783433312c,
  0x2020202030783433312c30783433312c30783433312c30783433312c30783433312c30783433312c30783433312c30783433312c30783964322c30783963612c30783433312c30783433312c30783433312c30783433312c30783433312c30783433312c,
  0x2020202030783433312c30783433312c30783433312c30783964612c30783433312c30783965322c30783433312c30783433312c30783433312c30783965362c30783965642c30783966332c30783433312c30783966372c30783966662c30783433312c,
  0x2020202030783530382c30786130372c30786130652c30786131352c30783431332c30786131382c30783339632c30783339632c30783465652c30786131662c30783339632c30786132352c30783431332c30786132612c30786133322c30783339632c,
  0x2020202030783339632c30786133372c30783339632c30783339632c30783339632c30783339632c30783832632c30786133662c30783431332c30783539302c30783536622c30786134362c30783339632c30783339632c30783339632c30783339632c,
  0x2020202030783339632c30786130372c30786134652c30783339632c30783339632c30786135362c30786135652c30783339632c30783339632c30783339632c30783339632c30783339632c30783339632c30786136322c30786136612c30783339632c,
  0x2020202030783339632c30786137322c30783536622c30786137612c30783339632c30786138302c30783339632c30783339632c30783566632c30786138382c30783339632c30783339632c30783339632c30783339632c30783339632c30783339632c,
  0x2020202030786138642c30783339632c30783339632c30783339632c30783339632c30783339632c30783339632c30783339632c30786139342c30786139632c30783339632c30783339632c30783339632c30786139662c30783536622c30786161372c,
  0x2020202030786161622c30786162332c30783339632c30786162612c30783339632c30783339632c30783339632c30783339632c30783339632c30783339632c30783339632c30783339632c30783339632c30783339632c30783339632c30783339632c,
  0x2020202030786163312c30783339632c30783339632c30786163662c30786163392c30783339632c30783339632c30783339632c30786164372c30786164662c30783339632c30786165332c30783339632c30783339632c30783339632c30783339632c,
  0x2020202030783339632c30783339632c30783339632c30783339632c30783339632c30783339632c30783539322c30783339632c30783339632c30783339632c30783339632c30783339632c30783339632c30786166302c30786165622c30783339632c,
  0x2020202030783339632c30783339632c30783339632c30783339632c30783339632c30783339632c30783339632c30783339632c30783339632c30783339632c30783339632c30783339632c30783339632c30783339632c30783339632c30783339632c,
  0x2020202030783339632c30783339632c30783339632c30783339632c30783339632c30783339632c30783339632c30783339632c30783339632c30783339632c30783339632c30783339632c30783339632c30783339632c30783339632c30783339632c,
  0x2020202030786166382c30783339632c30783339632c30783339632c30783339632c30783339632c30783339632c30783339632c30783339632c30783339632c30783339632c30783339632c30783339632c30783339632c30783339632c30783339632c,
  0x2020202030783339632c30783339632c30783339632c30783339632c30783339632c30783339632c30783339632c30783339632c30783339632c30783339632c30783339632c30783339632c30783339632c30783339632c30783339632c30786166662c,
  0x2020202030783339632c30786230352c30783339632c30783339632c30783339632c30783339632c30783339632c30783339632c30783339632c30783339632c30783339632c30783339632c30783339632c30783339632c30783339632c30783339632c,
  0x2020202030783339632c30783339632c30783339632c30783339632c30783339632c30783339632c30783339632c30783339632c30783339632c30783339632c30783339632c30783339632c30783339632c30783339632c30783339632c30783339632c,
  0x2020202030783339632c30783339632c30786132362c30783339632c30786230622c30783339632c30783339632c30786231332c30783339632c30783339632c30783339632c30783339632c30783339632c30783339632c30783339632c30783339632c,
  0x2020202030783339632c30783339632c30783339632c30783339632c30783339632c30783339632c30783339632c30783339632c30783339632c30783339632c30783339632c30783339632c30783339632c30783339632c30783339632c30783339632c,
  0x2020202030783339632c30783339632c30783339632c30783339632c30783339632c30783339632c30783339632c30783339632c30783339632c30783339632c30783339632c30783339632c30783532322c30786231622c30783339632c30783339632c,
  0x2020202030783339632c30783339632c30783339632c30783339632c30783339632c30783339632c30783339632c30783339632c30783339632c30783339632c30783339632c30783339632c30783339632c30783339632c30783339632c30783339632c,
  0x2020202030783339632c30783339632c30783339632c30783339632c30783339632c30783339632c30783339632c30783339632c30786232322c30786232612c30786233302c30783339632c30783339632c30783636392c30783636392c30786233382c,
  0x2020202030783339632c30783339632c30783339632c30783339632c30783339632c30783636392c30783636392c30783833662c30783339632c30783339632c30783339632c30783339632c30783339632c30783339632c30783339632c30783339632c,
  0x2020202030783339632c30783339632c30783339632c30783339632c30783339632c30783339632c30783339632c30783339632c30783339632c30783339632c30783339632c30783339632c30783339632c30783339632c30783339632c30783339632c,
  0x2020202030783339632c30783339632c30783339632c30786233612c30783339632c30786234312c30783339632c30786233642c30783339632c30786234342c30783339632c30786234632c30786235302c30783339632c30783339632c30783339632c,
  0x2020202030783339632c30783339632c30783339632c30783339632c30783339632c30783339632c30783339632c30783339632c30783339632c30783339632c30783339632c30783339632c30783339632c30783365612c30786235382c30783365612c,
  0x2020202030786235662c30786236362c30786236652c30783339632c30783339632c30783339632c30783339632c30783339632c30783339632c30783339632c30783339632c30783339632c30783339632c30783339632c30783339632c30783339632c,
  0x2020202030783339632c30783339632c30783339632c30783339632c30783339632c30783339632c30783339632c30783339632c30783339632c30783339632c30783339632c30783339632c30783339632c30783339632c30783339632c30783339632c,
  0x2020202030783339632c30783339632c30783339632c30783339632c30783339632c30783339632c30783339632c30783339632c30783339632c30783339632c30783339632c30783339632c30783339632c30786237362c30786237652c30783339632c,
  0x2020202030783339632c30783339632c30783339632c30783339632c30783339632c30783339632c30786230352c30783339632c30783339632c30783339632c30783339632c30783339632c30783339632c30783339632c30783339632c30783339632c,
  0x2020202030783339632c30783339632c30783339632c30783339632c30786238332c30783339632c30783339632c30783339632c30783339632c30783339632c30783339632c30783339632c30783339632c30783339632c30783339632c30783339632c,
  0x2020202030783339632c30783339632c30783339632c30783339632c30783339632c30783339632c30783339632c30783339632c30783339632c30783339632c30783339632c30783339632c30783339632c30783339632c30783339632c30783339632c,
  0x2020202030783339632c30783339632c30783339632c30783339632c30783339632c30783339632c30783339632c30783339632c30783339632c30783339632c30783339632c30783339632c30783339632c30783433312c30783433312c30783433312c,
  0x2020202030783433312c30783433312c30783433312c30786238622c30783433312c30786239332c30786239332c30786239612c30783433312c30783433312c30783433312c30783433312c30783433312c30783433312c30783433312c30783433312c,
  0x2020202030783433312c30783433312c30783433312c30783433312c30783433312c30783433312c30783433312c30783433312c30783433312c30783433312c30783433312c30783433312c30783433312c30783433312c30783433312c30783433312c,
  0x2020202030783930642c30783439622c30783439622c30783433312c30783433312c30783439622c30783439622c30783966332c30783433312c30783433312c30783433312c30783433312c30783433312c30783439622c30783439622c30783439622c,
  0x2020202030783439622c30783439622c30783439622c30783439622c30786261322c30783433312c30783433312c30783433312c30783433312c30783433312c30783433312c30783433312c30783433312c30783636392c30786261612c30783636392c,
  0x2020202030783636392c30783636632c30786261662c30786262332c30783834662c30786262622c30783362652c30783339632c30786263312c30783339632c30786263362c30783339632c30783339632c30783339632c30783339632c30783339632c,
  0x2020202030783737392c30783339632c30783339632c30783339632c30783339632c30783636392c30783636392c30783636392c30783636392c30783636392c30783636392c30783636392c30783636392c30783636392c30783636392c30783636392c,
  0x2020202030783636392c30783636392c30783636392c30783636392c30783636392c30783636392c30783636392c30783636392c30783636392c30783636392c30783636392c30783636392c30783636392c30783636392c30783636392c30783636392c,
  0x2020202030783636392c30783636392c30783636392c30783636622c30783937392c30783636392c30783636392c30783636392c30783636632c30783636392c30783636392c30786263652c30783636652c30786261612c30783636392c30786264362c,
  0x2020202030783636392c30786264652c30786265332c30783339632c30783339632c30783636392c30783636392c30783636392c30786265622c30783636392c30783636392c30783739382c30783636392c30783636392c30783636392c30783636632c,
  0x2020202030786266322c30786266612c30786330302c30786330352c30783339632c30783636392c30783636392c30783636392c30783636392c30786330642c30783636392c30783738382c30786331352c30783339632c30783339632c30783339632c,
  0x2020202030783339632c30783339632c30783339632c30783339632c30783339632c30783339632c30783339632c30783339632c30783339632c30783339632c30783339632c30783339632c30783339632c30783339632c30783339632c30783339632c,
  0x2020202030783339632c30783339632c30783339632c30783339632c30783339632c30783339632c30783339632c30783339632c30783339632c30783339632c30783339632c30783339632c30786331632c30783339632c30783339632c30783339632c,
  0x2020202030783339632c30783339632c30783339632c30783339632c30783339632c30783339632c30783339632c30783339632c30783339632c30783339632c30783339632c30783339632c30783339632c30783339632c30783339632c30783339632c,
  0x2020202030783339632c30783339632c30783339632c30783339632c30783339632c30783339632c30783339632c30783339632c30783339632c30783339632c30783339632c30783339632c30783339632c30783339632c30783339632c30783339632c,
  0x2020202030783339632c30783339632c30783339632c30783339632c30783339632c30783339632c30783339632c30783339632c30783339632c30783339632c30783339632c30783339632c30783339632c30783339632c30783339632c30783339632c,
  0x2020202030783339632c30783339632c30783339632c30783339632c30783339632c30783339632c30783339632c30783339632c30783339632c30783339632c30783339632c30783339632c30786331632c30786332632c30786332342c30786332342c,
  0x2020202030786332342c30786332642c30786332642c30786332642c30786332642c30783365612c30783365612c30783365612c30783365612c30783365612c30783365612c30783365612c30786333352c30786332642c30786332642c30786332642c,
  0x2020202030786332642c30786332642c30786332642c30786332642c30786332642c30786332642c30786332642c30786332642c30786332642c30786332642c30786332642c30786332642c30786332642c30786332642c30786332642c30786332642c,
  0x2020202030786332642c30786332642c30786332642c30786332642c30786332642c30786332642c30786332642c30786332642c30786332642c30786332642c30786332642c30786332642c30786332642c30786332642c30786332642c30786332642c,
  0x2020202030786332642c30786332642c30786332642c30786332642c30786332642c30786332642c30786332642c30786332642c30786332642c30786332642c30786332642c30786332642c30786332642c30786332642c30786332642c30786332642c,
  0x2020202030786332642c30786332642c30786332642c30786332642c30786332642c30786332642c30786332642c30786332642c30786332642c30786332642c30786332642c30786332642c30786332642c30783337622c30783337622c30783337622c,
  0x20202020307831322c307831322c307831322c307831322c307831322c307831322c307831322c307831322c307831322c382c372c382c392c372c307831322c307831322c,
  0x20202020307831322c307831322c307831322c307831322c307831322c307831322c307831322c307831322c307831322c307831322c307831322c307831322c372c372c372c382c,
  0x20202020392c3078612c3078612c342c342c342c3078612c3078612c3078333130612c3078663230612c3078612c332c362c332c362c362c,
  0x20202020322c322c322c322c322c322c322c322c322c322c362c3078612c3078353030612c3078612c3078643030612c3078612c,
  0x202020203078612c302c302c302c302c302c302c302c302c302c302c302c302c302c302c302c,
  0x20202020302c302c302c302c302c302c302c302c302c302c302c3078353130612c3078612c3078643230612c3078612c3078612c,
  0x202020203078612c302c302c302c302c302c302c302c302c302c302c302c302c302c302c302c,
  0x20202020302c302c302c302c302c302c302c302c302c302c302c3078353130612c3078612c3078643230612c3078612c307831322c,
  0x20202020302c302c302c302c302c302c302c302c302c302c302c302c302c302c302c302c,
  0x20202020302c302c302c302c302c302c302c302c302c302c302c302c302c302c302c302c,
  0x20202020302c302c302c302c302c302c302c302c302c302c302c302c302c302c302c302c,
  0x20202020302c302c302c302c302c302c302c302c302c302c302c302c302c302c302c302c,
  0x20202020307831322c307831322c307831322c307831322c307831322c372c307831322c307831322c307831322c307831322c307831322c307831322c307831322c307831322c307831322c307831322c,
  0x20202020307831322c307831322c307831322c307831322c307831322c307831322c307831322c307831322c307831322c307831322c307831322c307831322c307831322c307831322c307831322c307831322c,
  0x20202020362c3078612c342c342c342c342c3078612c3078612c3078612c3078612c302c3078393030612c3078612c307862322c3078612c3078612c,
  0x20202020342c342c322c322c3078612c302c3078612c3078612c3078612c322c302c3078393030612c3078612c3078612c3078612c3078612c,
  0x20202020302c302c302c302c302c302c302c302c302c302c302c302c302c302c302c302c,
  0x20202020302c302c302c302c302c302c302c3078612c302c302c302c302c302c302c302c302c,
  0x20202020302c302c302c302c302c302c302c302c302c302c302c302c302c302c302c302c,
  0x20202020302c302c302c302c302c302c302c3078612c302c302c302c302c302c302c302c302c,
  0x20202020302c302c302c302c302c302c302c302c302c302c302c302c302c302c302c302c,
  0x20202020302c302c302c302c302c302c302c302c302c302c302c302c302c302c302c302c,
  0x20202020302c302c302c302c302c302c302c302c302c302c302c302c302c302c302c302c,
  0x20202020302c3078612c3078612c302c302c302c302c302c302c302c3078612c3078612c3078612c3078612c3078612c3078612c,
  0x202020203078612c3078612c3078612c3078612c3078612c3078612c3078612c3078612c302c302c3078612c3078612c3078612c3078612c3078612c3078612c,
  0x202020203078612c3078612c3078612c3078612c3078612c3078612c3078612c3078612c302c302c302c302c302c3078612c3078612c3078612c,
  0x202020203078612c3078612c3078612c3078612c3078612c3078612c302c3078612c3078612c3078612c3078612c3078612c3078612c3078612c3078612c3078612c,
  0x202020203078612c3078612c3078612c3078612c3078612c3078612c3078612c3078612c307862312c307862312c307862312c307862312c307862312c307862312c307862312c307862312c,
  0x20202020307862312c307862312c307862312c307862312c307862312c307862312c307862312c307862312c307862312c307862312c307862312c307862312c307862312c307862312c307862312c307862312c,
  0x20202020307862312c307862312c307862312c307862312c307862312c307862312c307862312c307862312c307862312c307862312c307862312c307862312c307862312c307862312c307862312c307862312c,
  0x20202020307862312c307862312c307862312c307862312c307862312c307862312c307862312c307862312c307862312c307862312c307862312c307862312c307862312c307862312c307862312c307862312c,
  0x20202020307862312c307862312c307862312c307862312c307862312c307862312c307862312c307862312c302c302c302c302c3078612c3078612c302c302c,
  0x20202020302c302c302c302c302c302c3078612c302c302c302c302c302c3078612c3078612c302c3078612c]

/-- UnicodeData/BidiPropsData.py:266-521 the lines. -/
def bidiText2 : List Nat :=
 [0x20202020302c302c302c302c302c302c302c302c302c302c302c302c302c302c302c302c,
  0x20202020302c302c302c302c302c302c302c302c302c302c302c302c302c302c302c302c,
  0x20202020302c302c302c302c302c302c302c302c302c302c302c302c302c302c302c302c,
  0x20202020302c302c302c302c302c302c302c302c302c302c3078612c302c302c302c302c302c,
  0x20202020302c302c302c302c302c302c302c307862312c307862312c307862312c307862312c307862312c307862312c307862312c302c302c,
  0x20202020302c302c302c302c302c302c302c302c302c302c302c302c302c302c302c302c,
  0x20202020302c302c302c302c302c302c302c302c302c302c302c302c302c302c302c302c,
  0x20202020302c302c302c302c302c302c302c302c302c302c302c302c302c302c302c302c,
  0x20202020302c302c302c302c302c302c3078612c302c302c3078612c3078612c342c312c307862312c307862312c307862312c,
  0x20202020307862312c307862312c307862312c307862312c307862312c307862312c307862312c307862312c307862312c307862312c307862312c307862312c307862312c307862312c307862312c307862312c,
  0x20202020307862312c307862312c307862312c307862312c307862312c307862312c307862312c307862312c307862312c307862312c307862312c307862312c307862312c307862312c307862312c307862312c,
  0x20202020307862312c307862312c307862312c307862312c307862312c307862312c307862312c307862312c307862312c307862312c312c307862312c312c307862312c307862312c312c,
  0x20202020307862312c307862312c312c307862312c312c312c312c312c312c312c312c312c312c312c312c312c,
  0x20202020312c312c312c312c312c312c312c312c312c312c312c312c312c312c312c312c,
  0x20202020312c312c312c312c312c312c312c312c312c312c312c312c312c312c312c312c,
  0x20202020312c312c312c312c312c312c312c312c312c312c312c312c352c352c352c352c,
  0x20202020352c352c3078612c3078612c3078642c342c342c3078642c362c3078642c3078612c3078612c307862312c307862312c307862312c307862312c,
  0x20202020307862312c307862312c307862312c307862312c307862312c307862312c307862312c3078642c30783861642c3078642c3078642c3078642c307834642c3078642c307838642c307838642c,
  0x20202020307838642c307838642c307834642c307838642c307834642c307838642c307834642c307834642c307834642c307834642c307834642c307838642c307838642c307838642c307838642c307834642c,
  0x20202020307834642c307834642c307834642c307834642c307834642c307834642c307834642c307834642c307834642c307834642c307834642c307834642c307832642c307834642c307834642c307834642c,
  0x20202020307834642c307834642c307834642c307834642c307838642c307834642c307834642c307862312c307862312c307862312c307862312c307862312c307862312c307862312c307862312c307862312c,
  0x20202020307862312c307862312c307862312c307862312c307862312c307862312c307862312c307862312c307862312c307862312c307862312c307862312c352c352c352c352c,
  0x20202020352c352c352c352c352c352c342c352c352c3078642c307834642c307834642c307862312c307838642c307838642c307838642c,
  0x202020203078642c307838642c307838642c307838642c307834642c307834642c307834642c307834642c307834642c307834642c307834642c307834642c307838642c307838642c307838642c307838642c,
  0x20202020307838642c307838642c307838642c307838642c307838642c307838642c307838642c307838642c307838642c307838642c307838642c307838642c307838642c307838642c307834642c307834642c,
  0x20202020307834642c307834642c307834642c307834642c307834642c307834642c307834642c307834642c307834642c307834642c307834642c307834642c307834642c307834642c307834642c307834642c,
  0x20202020307834642c307834642c307834642c307834642c307834642c307834642c307834642c307834642c307834642c307834642c307834642c307834642c307834642c307834642c307834642c307834642c,
  0x20202020307834642c307834642c307834642c307834642c307838642c307834642c307834642c307838642c307838642c307838642c307838642c307838642c307838642c307838642c307838642c307838642c,
  0x20202020307834642c307838642c307834642c307838642c307834642c307834642c307838642c307838642c3078642c307838642c307862312c307862312c307862312c307862312c307862312c307862312c,
  0x20202020307862312c352c3078612c307862312c307862312c307862312c307862312c307862312c307862312c3078642c3078642c307862312c307862312c3078612c307862312c307862312c,
  0x20202020307862312c307862312c307838642c307838642c322c322c322c322c322c322c322c322c322c322c307834642c307834642c,
  0x20202020307834642c3078642c3078642c307834642c3078642c3078642c3078642c3078642c3078642c3078642c3078642c3078642c3078642c3078642c3078642c3078642c,
  0x202020203078642c3078642c3078642c307861642c307838642c307862312c307834642c307834642c307834642c307838642c307838642c307838642c307838642c307838642c307834642c307834642c,
  0x20202020307834642c307834642c307838642c307834642c307834642c307834642c307834642c307834642c307834642c307834642c307834642c307834642c307838642c307834642c307838642c307834642c,
  0x20202020307838642c307834642c307834642c307838642c307862312c307862312c307862312c307862312c307862312c307862312c307862312c307862312c307862312c307862312c307862312c307862312c,
  0x20202020307862312c307862312c307862312c307862312c307862312c307862312c307862312c3078642c3078642c307838642c307834642c307834642c307834642c307834642c307834642c307834642c,
  0x20202020307834642c307834642c307834642c307834642c307834642c307838642c307838642c307838642c307834642c307834642c307834642c307834642c307834642c307834642c307834642c307834642c,
  0x20202020307834642c307834642c307834642c307834642c307834642c307834642c307834642c307838642c307838642c307834642c307834642c307834642c307834642c307838642c307834642c307838642c,
  0x20202020307838642c307834642c307834642c307834642c307838642c307838642c307834642c307834642c307834642c307834642c307834642c307834642c3078642c3078642c3078642c3078642c,
  0x202020203078642c3078642c3078642c3078642c3078642c3078642c3078642c3078642c3078642c3078642c3078642c3078642c3078642c3078642c3078642c3078642c,
  0x202020203078642c3078642c3078642c3078642c3078642c3078642c3078642c3078642c3078642c3078642c3078642c3078642c3078642c3078642c3078642c3078642c,
  0x202020203078642c3078642c307862312c307862312c307862312c307862312c307862312c307862312c307862312c307862312c307862312c307862312c307862312c3078642c3078642c3078642c,
  0x202020203078642c3078642c3078642c3078642c3078642c3078642c3078642c3078642c3078642c3078642c3078642c3078642c312c312c312c312c,
  0x20202020312c312c312c312c312c312c307834312c307834312c307834312c307834312c307834312c307834312c307834312c307834312c307834312c307834312c,
  0x20202020307834312c307834312c307834312c307834312c307834312c307834312c307834312c307834312c307834312c307834312c307834312c307834312c307834312c307834312c307834312c307834312c,
  0x20202020307834312c307834312c307834312c307834312c307834312c307834312c307834312c307862312c307862312c307862312c307862312c307862312c307862312c307862312c307862312c307862312c,
  0x20202020312c312c3078612c3078612c3078612c3078612c307832312c312c312c307862312c312c312c307862312c307862312c307862312c307862312c,
  0x20202020312c307862312c307862312c307862312c312c307862312c307862312c307862312c307862312c307862312c312c312c312c312c312c312c,
  0x20202020312c312c312c312c312c312c312c312c312c312c312c312c312c312c312c312c,
  0x20202020312c312c307862312c307862312c307862312c307862312c312c307862312c307862312c307862312c307862312c307862312c307838312c307834312c307834312c307834312c,
  0x20202020307834312c307834312c307838312c307838312c307834312c307838312c307834312c307834312c307834312c307834312c307834312c307834312c307834312c307834312c307834312c307834312c,
  0x20202020307838312c307834312c307838312c307838312c307838312c307862312c307862312c307862312c312c312c312c312c307834642c3078642c307834642c307834642c,
  0x20202020307834642c307834642c3078642c307838642c307834642c307838642c307838642c3078642c3078642c3078642c3078642c3078642c312c312c312c312c,
  0x20202020312c312c312c312c312c312c312c312c312c312c312c312c307862312c307862312c352c307862312c,
  0x20202020307862312c307862312c307862312c307862312c307862312c307862312c307862312c307862312c307862312c307862312c307862312c307862312c307862312c307862312c307862312c307862312c,
  0x20202020307862312c307862312c307862312c307862312c307862312c307862312c307862312c307862312c307862312c307862312c307862312c307862312c307834642c307834642c307834642c307834642c,
  0x20202020307834642c307834642c307834642c307834642c307834642c307834642c307838642c307838642c307838642c3078642c307838642c307834642c307834642c307838642c307838642c307834642c,
  0x20202020307834642c3078642c307834642c307834642c307834642c307838642c307834642c307834642c307834642c307834642c307834642c307834642c307834642c307834642c307834642c307834642c,
  0x202020203078642c3078642c3078642c3078642c3078642c3078642c3078642c3078642c3078642c3078642c3078642c307862312c307862312c307862312c307862312c307862312c,
  0x20202020307862312c307862312c307862312c307862312c307862312c307862312c307862312c307862312c307862312c307862312c307862312c302c302c302c302c302c,
  0x20202020302c302c302c302c302c302c302c302c302c302c302c302c302c302c302c302c,
  0x20202020302c302c302c302c302c302c302c302c302c302c307862312c302c307862312c302c302c302c,
  0x20202020302c307862312c307862312c307862312c307862312c307862312c307862312c307862312c307862312c302c302c302c302c307862312c302c302c,
  0x20202020302c307862312c307862312c307862312c307862312c307862312c307862312c307862312c302c302c302c302c302c302c302c302c,
  0x20202020302c302c307862312c307862312c302c302c302c302c302c302c302c302c302c302c302c302c,
  0x20202020302c302c302c302c302c302c302c302c302c302c302c302c302c302c302c302c,
  0x20202020302c307862312c302c302c302c302c302c302c302c302c302c302c302c302c302c302c,
  0x20202020302c302c302c302c302c302c302c302c302c302c302c302c302c302c302c302c,
  0x20202020307862312c302c302c302c302c307862312c307862312c307862312c307862312c302c302c302c302c302c302c302c,
  0x20202020302c307862312c302c302c302c302c302c302c302c302c302c302c302c302c302c302c,
  0x20202020302c302c302c302c302c302c307862312c307862312c302c302c302c302c302c302c302c302c,
  0x20202020302c302c302c302c302c302c342c342c302c302c302c302c302c302c302c342c,
  0x20202020302c302c307862312c302c302c307862312c307862312c302c302c302c302c302c302c302c302c302c,
  0x20202020302c302c302c302c302c302c302c302c302c302c302c302c302c302c302c302c,
  0x20202020302c302c302c302c302c307862312c307862312c302c302c302c302c307862312c307862312c302c302c307862312c,
  0x20202020307862312c307862312c302c302c302c307862312c302c302c302c302c302c302c302c302c302c302c,
  0x20202020302c302c302c302c302c302c302c302c307862312c307862312c302c302c302c307862312c302c302c,
  0x20202020302c302c302c302c302c302c302c302c302c307862312c307862312c307862312c307862312c307862312c302c307862312c,
  0x20202020307862312c302c302c302c302c307862312c302c302c302c302c302c302c302c302c302c302c,
  0x20202020302c302c302c302c302c302c302c302c302c302c307862312c307862312c302c302c302c302c,
  0x20202020302c302c302c302c302c302c302c302c302c342c302c302c302c302c302c302c,
  0x20202020302c302c307862312c307862312c307862312c307862312c307862312c307862312c302c302c302c302c302c302c302c302c,
  0x20202020302c302c302c302c302c302c302c302c302c302c302c302c302c302c302c302c,
  0x20202020302c302c302c302c307862312c302c302c307862312c302c307862312c307862312c307862312c307862312c302c302c302c,
  0x20202020302c302c302c302c302c307862312c302c302c302c302c302c302c302c307862312c307862312c302c,
  0x20202020302c302c302c302c302c302c302c302c302c302c307862312c302c302c302c302c302c,
  0x20202020302c302c302c302c302c302c302c302c302c302c302c302c302c302c302c302c,
  0x20202020302c302c302c302c302c302c302c302c307862312c302c302c302c302c302c302c302c,
  0x20202020302c302c302c302c302c307862312c302c302c302c302c302c302c302c302c302c302c,
  0x20202020302c302c302c302c302c302c302c302c302c302c302c3078612c3078612c3078612c3078612c3078612c,
  0x202020203078612c342c3078612c302c302c302c302c302c307862312c302c302c302c307862312c302c302c302c,
  0x20202020302c302c302c302c302c302c302c302c302c302c302c302c302c302c302c302c,
  0x20202020302c302c302c302c302c302c302c302c302c302c302c302c302c302c307862312c307862312c,
  0x20202020307862312c302c302c302c302c302c307862312c307862312c307862312c302c307862312c307862312c307862312c307862312c302c302c,
  0x20202020302c302c302c302c302c307862312c307862312c302c302c302c302c302c302c302c302c302c,
  0x20202020302c302c307862312c307862312c302c302c302c302c302c302c302c302c302c302c302c302c,
  0x20202020302c302c302c302c302c302c302c302c3078612c3078612c3078612c3078612c3078612c3078612c3078612c302c,
  0x20202020302c302c302c302c302c302c302c302c302c302c302c302c302c302c302c302c,
  0x20202020302c302c302c302c302c302c302c302c302c302c302c302c307862312c302c302c307861302c,
  0x20202020302c302c302c302c302c302c307861302c302c302c302c302c302c307862312c307862312c302c302c,
  0x20202020302c302c302c302c302c302c302c302c302c302c302c302c302c302c302c302c,
  0x20202020302c302c302c302c302c302c302c302c302c302c302c307862312c307862312c302c302c302c,
  0x20202020302c302c302c302c302c302c302c302c302c302c307862312c302c302c302c302c302c,
  0x20202020302c302c307862312c307862312c307862312c302c307862312c302c302c302c302c302c302c302c302c302c,
  0x20202020302c302c302c302c302c302c302c302c302c307862312c302c302c307862312c307862312c307862312c307862312c,
  0x20202020307862312c307862312c307862312c302c302c302c302c342c302c302c302c302c302c302c302c307862312c,
  0x20202020307862312c307862312c307862312c307862312c307862312c307862312c307862312c302c302c302c302c302c302c302c302c302c,
  0x20202020302c302c302c302c302c302c302c302c302c307862312c302c302c307862312c307862312c307862312c307862312c,
  0x20202020307862312c307862312c307862312c307862312c307862312c302c302c302c302c302c302c302c302c302c302c302c,
  0x20202020307862312c307862312c307862312c307862312c307862312c307862312c302c302c302c302c302c302c302c302c302c302c,
  0x20202020302c302c302c302c302c302c302c302c302c302c302c302c302c302c302c302c,
  0x20202020307862312c307862312c302c302c302c302c302c302c302c302c302c302c302c302c302c302c,
  0x20202020302c302c302c302c302c302c302c302c302c307862312c302c307862312c302c307862312c3078333130612c3078663230612c,
  0x202020203078333130612c3078663230612c302c302c302c302c302c302c302c302c302c302c302c302c302c302c,
  0x20202020302c302c302c302c302c307862312c307862312c307862312c307862312c307862312c307862312c307862312c307862312c307862312c307862312c307862312c,
  0x20202020307862312c307862312c307862312c302c307862312c307862312c307862312c307862312c307862312c302c307862312c307862312c302c302c302c302c,
  0x20202020302c307862312c307862312c307862312c307862312c307862312c307862312c307862312c307862312c307862312c307862312c307862312c302c307862312c307862312c307862312c,
  0x20202020307862312c307862312c307862312c307862312c307862312c307862312c307862312c307862312c307862312c307862312c307862312c307862312c307862312c307862312c307862312c307862312c,
  0x20202020307862312c307862312c307862312c307862312c307862312c307862312c307862312c307862312c307862312c307862312c307862312c307862312c307862312c302c302c302c,
  0x20202020302c302c302c302c302c302c302c302c302c302c302c302c302c307862312c307862312c307862312c,
  0x20202020307862312c302c307862312c307862312c307862312c307862312c307862312c307862312c302c307862312c307862312c302c302c307862312c307862312c302c,
  0x20202020302c302c302c302c302c302c302c302c302c302c302c302c302c302c302c302c,
  0x20202020302c302c302c302c302c302c302c302c307862312c307862312c302c302c302c302c307862312c307862312c,
  0x20202020307862312c302c302c302c302c302c302c302c302c302c302c302c302c302c302c302c,
  0x20202020302c307862312c307862312c307862312c307862312c302c302c302c302c302c302c302c302c302c302c302c,
  0x20202020302c302c307862312c302c302c307862312c307862312c302c302c302c302c302c302c307862312c302c302c,
  0x20202020302c302c302c302c302c302c302c302c302c302c302c302c302c307862312c302c302c,
  0x20202020302c302c302c302c302c302c302c302c302c302c302c302c302c302c302c302c,
  0x20202020302c302c302c302c302c302c302c302c302c302c302c302c302c307862312c307862312c307862312c,
  0x20202020302c302c302c302c302c302c302c302c302c302c302c302c302c302c302c302c,
  0x202020203078612c3078612c3078612c3078612c3078612c3078612c3078612c3078612c3078612c3078612c302c302c302c302c302c302c,
  0x202020203078612c302c302c302c302c302c302c302c302c302c302c302c302c302c302c302c,
  0x20202020302c302c302c302c302c302c302c302c302c302c302c302c302c302c302c302c,
  0x20202020392c302c302c302c302c302c302c302c302c302c302c302c302c302c302c302c,
  0x20202020302c302c302c302c302c302c302c302c302c302c302c3078333130612c3078663230612c302c302c302c,
  0x20202020302c302c302c302c302c302c302c302c302c302c302c302c302c302c302c302c,
  0x20202020302c302c307862312c307862312c307862312c302c302c302c302c302c302c302c302c302c302c302c,
  0x20202020302c302c302c302c302c302c302c302c302c302c302c302c307862312c307862312c302c307862312c,
  0x20202020307862312c307862312c307862312c307862312c307862312c307862312c302c302c302c302c302c302c302c302c307862312c302c,
  0x20202020302c307862312c307862312c307862312c307862312c307862312c307862312c307862312c307862312c307862312c307862312c307862312c302c302c302c302c,
  0x20202020302c302c302c342c302c307862312c302c302c307834302c307834302c307834302c307834302c307834302c307834302c307834302c307834302c,
  0x20202020307834302c307834302c307834302c307834302c307834302c307834302c307834302c307834302c307834302c307834302c307834302c307834302c307834302c307834302c307834302c307834302c,
  0x20202020307834302c307834302c307834302c307834302c307834302c307834302c307834302c307834302c307834302c307862312c307834302c302c302c302c302c302c,
  0x20202020302c302c302c302c302c302c302c302c302c302c302c302c302c302c302c302c,
  0x202020203078612c3078612c3078612c3078612c3078612c3078612c3078612c307834612c3078612c3078612c307832612c307862312c307862312c307862312c307831322c302c,
  0x20202020302c302c302c302c302c302c302c302c302c302c302c302c302c302c302c302c,
  0x20202020307834302c307834302c307834302c307834302c307834302c307834302c307834302c307834302c307834302c307834302c307834302c307834302c307834302c307834302c307834302c307834302c,
  0x20202020307834302c307834302c307834302c307834302c307834302c307834302c307834302c307834302c307834302c302c302c302c302c302c302c302c,
  0x20202020302c307862312c307862312c307834302c307834302c307834302c307834302c307834302c307834302c307834302c307834302c307834302c307834302c307834302c307834302c307834302c,
  0x20202020307834302c307834302c307834302c307834302c307834302c307834302c307834302c307834302c307834302c307834302c307834302c307834302c307862312c307862312c307862312c302c,
  0x20202020302c302c302c307862312c307862312c302c302c302c302c302c302c302c302c302c307862312c302c,
  0x20202020302c302c302c302c302c307862312c307862312c307862312c302c302c302c302c3078612c302c302c302c,
  0x202020203078612c3078612c302c302c302c302c302c302c302c302c302c302c302c302c302c302c,
  0x20202020302c302c302c302c302c302c302c302c302c302c302c302c302c302c302c302c,
  0x20202020302c302c3078612c3078612c3078612c3078612c3078612c3078612c3078612c3078612c3078612c3078612c3078612c3078612c3078612c3078612c,
  0x202020203078612c3078612c3078612c3078612c3078612c3078612c3078612c3078612c3078612c3078612c3078612c3078612c3078612c3078612c3078612c3078612c,
  0x202020203078612c3078612c3078612c3078612c302c302c302c302c302c302c302c302c302c302c302c302c,
  0x20202020302c302c302c302c302c302c302c302c302c302c302c307862312c307862312c302c302c307862312c,
  0x20202020302c302c302c302c302c302c302c302c302c302c302c302c302c302c302c302c,
  0x20202020302c302c302c302c302c302c307862312c302c307862312c307862312c307862312c307862312c307862312c307862312c307862312c302c,
  0x20202020307862312c302c307862312c302c302c307862312c307862312c307862312c307862312c307862312c307862312c307862312c307862312c302c302c302c,
  0x20202020302c302c302c307862312c307862312c307862312c307862312c307862312c307862312c307862312c307862312c307862312c307862312c302c302c307862312c,
  0x20202020302c302c302c302c302c302c302c302c302c302c302c302c302c302c302c302c,
  0x20202020307862312c307862312c307862312c307862312c307862312c307862312c307862312c307862312c307862312c307862312c307862312c307862312c307862312c307862312c307862312c307862312c,
  0x20202020302c302c302c302c302c302c302c302c302c302c302c302c302c302c302c302c,
  0x20202020302c302c302c302c307862312c302c307862312c307862312c307862312c307862312c307862312c302c307862312c302c302c302c,
  0x20202020302c302c302c302c302c302c302c302c302c302c302c307862312c307862312c307862312c307862312c307862312c,
  0x20202020307862312c307862312c307862312c307862312c302c302c302c302c302c302c302c302c302c302c302c302c,
  0x20202020302c302c307862312c307862312c307862312c307862312c302c302c307862312c307862312c302c307862312c307862312c307862312c302c302c,
  0x20202020302c302c302c302c302c302c302c302c302c302c302c302c302c302c302c302c,
  0x20202020302c302c307862312c302c307862312c307862312c302c302c302c307862312c302c307862312c307862312c307862312c302c302c,
  0x20202020302c302c302c302c302c302c302c302c302c302c302c302c307862312c307862312c307862312c307862312c,
  0x20202020307862312c307862312c307862312c307862312c302c302c307862312c307862312c302c302c302c302c302c302c302c302c,
  0x20202020302c302c302c302c302c302c302c302c307862312c307862312c307862312c302c307862312c307862312c307862312c307862312c,
  0x20202020307862312c307862312c307862312c307862312c307862312c307862312c307862312c307862312c307862312c302c307862312c307862312c307862312c307862312c307862312c307862312c,
  0x20202020307862312c302c302c302c302c307862312c302c302c302c302c302c302c307862312c302c302c302c,
  0x20202020307862312c307862312c302c302c302c302c302c302c307862312c307862312c307862312c307862312c307862312c307862312c307862312c307862312c,
  0x20202020307862312c307862312c307862312c307862312c307862312c307862312c307862312c307862312c307862312c307862312c307862312c307862312c307862312c307862312c307862312c307862312c,
  0x20202020307862312c307862312c302c307862312c307862312c307862312c307862312c307862312c302c302c302c302c302c302c302c302c,
  0x20202020302c302c302c302c302c302c302c302c302c302c302c302c302c302c302c302c,
  0x20202020302c302c302c302c302c3078612c302c3078612c3078612c3078612c302c302c302c302c302c302c,
  0x20202020302c302c302c302c302c3078612c3078612c3078612c302c302c302c302c302c302c302c302c,
  0x20202020302c302c302c302c302c3078612c3078612c3078612c302c302c302c302c302c302c302c302c,
  0x20202020302c302c302c302c302c3078612c3078612c302c3078612c3078612c3078612c3078612c362c3078333130612c3078663230612c3078612c,
  0x202020203078612c3078612c3078612c3078612c3078612c3078612c3078612c3078612c3078612c3078612c3078612c3078612c3078612c3078612c3078612c3078612c,
  0x202020203078612c3078612c3078612c3078612c3078612c3078612c3078612c392c307862322c307862322c307862322c307862322c307862322c307831322c30783831342c30783831352c,
  0x2020202030783831332c30783831362c307862322c307862322c307862322c307862322c307862322c307862322c322c302c302c302c322c322c322c322c,
  0x20202020322c322c332c332c3078612c3078333130612c3078663230612c302c392c392c392c392c392c392c392c392c,
  0x20202020392c392c392c307862322c30783431322c30783433322c30783861302c30783861312c3078612c3078612c3078612c3078612c3078612c3078612c3078612c3078612c,
  0x202020203078612c3078612c3078612c3078612c3078612c3078612c3078612c3078612c392c372c30783861622c30783861652c30783862302c30783861632c30783861662c362c,
  0x20202020342c342c342c342c342c3078612c3078612c3078612c3078612c3078333030612c3078663030612c3078612c3078612c3078612c3078612c3078612c,
  0x20202020322c322c322c322c322c322c322c322c322c322c332c332c3078612c3078333130612c3078663230612c302c,
  0x20202020302c302c302c302c302c302c302c302c302c302c302c302c302c302c302c302c,
  0x20202020342c342c342c342c342c342c342c342c342c342c342c342c342c342c342c342c,
  0x20202020342c342c342c342c342c342c342c342c342c342c342c342c342c342c342c342c,
  0x20202020307862312c307862312c307862312c307862312c307862312c307862312c307862312c307862312c307862312c307862312c307862312c307862312c307862312c307862312c307862312c307862312c,
  0x202020203078612c3078612c302c3078612c3078612c3078612c3078612c302c3078612c3078612c302c302c302c302c302c302c,
  0x20202020302c302c302c302c3078612c302c3078612c3078612c3078612c302c302c302c302c302c3078612c3078612c,
  0x202020203078612c3078612c3078612c3078612c302c3078612c302c3078612c302c3078612c302c302c302c302c342c302c,
  0x20202020302c302c302c302c302c302c302c302c302c302c3078612c3078612c302c302c302c302c,
  0x202020203078313030612c3078612c3078612c3078612c3078612c302c302c302c302c302c3078612c3078612c3078612c3078612c302c302c,
  0x202020203078612c3078612c3078612c3078612c3078612c3078612c3078612c3078612c3078612c3078612c3078612c3078612c3078612c3078612c3078612c3078612c,
  0x20202020302c302c302c302c302c302c302c302c302c3078612c3078612c3078612c302c302c302c302c,
  0x202020203078612c3078612c3078612c3078612c3078612c3078612c3078612c3078612c3078612c3078612c3078612c3078612c3078612c3078612c3078612c3078612c,
  0x202020203078333030612c3078663030612c3078333030612c3078663030612c3078333030612c3078663030612c3078333030612c3078663030612c3078333030612c3078663030612c3078333030612c3078663030612c3078333030612c3078663030612c3078612c3078612c,
  0x202020203078333030612c3078663030612c3078393030612c3078393030612c3078393030612c3078313030612c3078393030612c3078393030612c3078313030612c3078313030612c3078393030612c3078393030612c3078393030612c3078393030612c3078393030612c3078313030612c,
  0x202020203078612c3078313030612c3078313030612c3078313030612c3078313030612c3078612c3078612c3078612c3078373030612c3078373030612c3078373030612c3078623030612c3078623030612c3078623030612c3078612c3078612c,
  0x202020203078612c3078313030612c332c342c3078612c3078393030612c3078313030612c3078612c3078612c3078612c3078313030612c3078313030612c3078313030612c3078313030612c3078612c3078393030612c,
  0x202020203078393030612c3078393030612c3078393030612c3078612c3078393030612c3078612c3078313030612c3078612c3078612c3078612c3078612c3078313030612c3078313030612c3078313030612c3078313030612c3078313030612c,
  0x202020203078313030612c3078313030612c3078313030612c3078313030612c3078612c3078612c3078612c3078612c3078612c3078313030612c3078612c3078313030612c3078333030612c3078663030612c3078313030612c3078313030612c,
  0x202020203078313030612c3078313030612c3078313030612c3078393030612c3078313030612c3078393030612c3078313030612c3078313030612c3078313030612c3078313030612c3078313030612c3078313030612c3078393030612c3078612c3078612c3078612c,
  0x202020203078612c3078612c3078333030612c3078663030612c3078333030612c3078663030612c3078612c3078612c3078612c3078612c3078612c3078612c3078612c3078612c3078612c3078313030612c,
  0x202020203078313030612c3078612c3078313030612c3078612c3078333030612c3078663030612c3078333030612c3078663030612c3078333030612c3078663030612c3078333030612c3078663030612c3078612c3078612c3078333030612c3078663030612c,
  0x202020203078333030612c3078663030612c3078333030612c3078663030612c3078333030612c3078663030612c3078333030612c3078663030612c3078333030612c3078663030612c3078333030612c3078663030612c3078333030612c3078663030612c3078333030612c3078663030612c,
  0x202020203078313030612c3078612c3078612c3078333030612c3078663030612c3078333030612c3078663030612c3078612c3078612c3078612c3078612c3078612c3078393030612c3078612c3078612c3078612c,
  0x202020203078612c3078612c3078612c3078612c3078612c3078612c3078333030612c3078663030612c3078612c3078612c3078393030612c3078313030612c3078393030612c3078393030612c3078313030612c3078393030612c,
  0x202020203078313030612c3078313030612c3078313030612c3078313030612c3078333030612c3078663030612c3078333030612c3078663030612c3078333030612c3078663030612c3078333030612c3078663030612c3078393030612c3078612c3078612c3078612c,
  0x202020203078612c3078612c3078313030612c3078313030612c3078612c3078612c3078612c3078612c3078612c3078612c3078612c3078612c3078612c3078333030612c3078663030612c3078333030612c,
  0x202020203078663030612c3078393030612c3078612c3078612c3078333030612c3078663030612c3078612c3078612c3078612c3078612c3078333030612c3078663030612c3078333030612c3078663030612c3078333030612c3078663030612c,
  0x202020203078333030612c3078663030612c3078333030612c3078663030612c3078612c3078612c3078612c3078612c3078612c3078612c3078612c3078612c3078333130612c3078663230612c3078333130612c3078663230612c,
  0x202020203078612c3078612c3078612c3078612c3078612c3078612c3078612c3078612c3078612c3078612c3078612c3078612c3078612c3078612c3078612c3078612c,
  0x202020203078612c3078612c3078612c3078612c3078313030612c3078313030612c3078612c3078612c3078612c3078612c3078612c3078612c3078612c3078333130612c3078663230612c3078612c,
  0x202020203078612c3078612c3078612c3078612c3078612c3078612c3078612c3078612c3078612c3078612c302c302c302c302c302c302c,
  0x20202020302c302c302c302c302c302c302c302c302c302c302c302c302c302c302c302c,
  0x20202020302c302c302c302c302c302c302c3078612c3078612c3078612c3078612c3078612c3078612c3078612c3078612c3078612c,
  0x202020203078612c3078612c3078612c3078612c3078612c3078612c3078612c3078612c3078612c3078612c3078612c3078612c3078612c302c3078612c3078612c,
  0x202020203078612c3078612c3078612c3078612c3078612c3078612c3078612c3078612c3078612c3078612c3078612c302c302c302c302c302c,
  0x20202020302c302c302c302c302c302c302c302c302c302c302c302c302c302c302c302c,
  0x202020203078612c3078612c3078612c3078612c3078612c3078612c3078612c3078612c322c322c322c322c322c322c322c322c,
  0x20202020322c322c322c322c322c322c322c322c322c322c322c322c302c302c302c302c,
  0x202020203078612c3078612c3078612c3078612c3078612c3078612c3078612c3078612c3078612c3078612c3078612c3078612c302c3078612c3078612c3078612c,
  0x202020203078612c3078612c3078612c3078612c3078612c3078612c3078612c3078612c3078612c3078612c3078612c3078612c3078612c3078612c3078612c3078612c,
  0x202020203078333130612c3078663230612c3078333130612c3078663230612c3078333130612c3078663230612c3078333130612c3078663230612c3078333130612c3078663230612c3078333130612c3078663230612c3078333130612c3078663230612c3078612c3078612c,
  0x202020203078612c3078612c3078612c3078612c3078612c3078612c3078612c3078612c3078313030612c3078612c3078612c3078333030612c3078663030612c3078333130612c3078663230612c3078612c,
  0x202020203078333030612c3078663030612c3078612c3078353030612c3078313030612c3078643030612c3078612c3078612c3078612c3078612c3078612c3078313030612c3078313030612c3078333030612c3078663030612c3078612c,
  0x202020203078612c3078612c3078612c3078612c3078393030612c3078333030612c3078663030612c3078612c3078612c3078612c3078333030612c3078663030612c3078333030612c3078663030612c3078333130612c3078663230612c,
  0x202020203078333130612c3078663230612c3078333130612c3078663230612c3078333130612c3078663230612c3078333130612c3078663230612c3078612c3078612c3078612c3078612c3078612c3078612c3078612c3078612c,
  0x202020203078612c3078612c3078612c3078612c3078612c3078612c3078612c3078612c3078612c3078313030612c3078612c3078313030612c3078313030612c3078313030612c3078612c3078612c,
  0x202020203078333030612c3078663030612c3078612c3078612c3078612c3078612c3078612c3078612c3078612c3078612c3078612c3078612c3078313030612c3078393030612c3078313030612c3078313030612c,
  0x202020203078333030612c3078663030612c3078612c3078612c3078333130612c3078663230612c3078612c3078612c3078612c3078612c3078612c3078333130612c3078663230612c3078333130612c3078663230612c3078333130612c,
  0x202020203078663230612c3078333130612c3078663230612c3078333130612c3078663230612c3078373130612c3078333230612c3078663130612c3078623230612c3078333130612c3078663230612c3078333130612c3078663230612c3078333130612c3078663230612c3078333130612c,
  0x202020203078663230612c3078612c3078612c3078393030612c3078313030612c3078313030612c3078313030612c3078313030612c3078393030612c3078612c3078313030612c3078393030612c3078333030612c3078663030612c3078313030612c3078313030612c,
  0x202020203078333030612c3078663030612c3078333030612c3078663030612c3078333030612c3078663030612c3078333030612c3078663030612c3078612c3078612c3078612c3078612c3078612c3078612c3078612c3078612c,
  0x202020203078393030612c3078612c3078612c3078612c3078612c3078612c3078612c3078612c3078333030612c3078663030612c3078313030612c3078313030612c3078333030612c3078663030612c3078612c3078612c,
  0x202020203078612c3078313030612c3078612c3078612c3078612c3078612c3078313030612c3078333030612c3078663030612c3078333030612c3078663030612c3078612c3078333030612c3078663030612c3078612c3078612c,
  0x202020203078333130612c3078663230612c3078333130612c3078663230612c3078313030612c3078612c3078612c3078612c3078612c3078612c3078313030612c3078393030612c3078393030612c3078393030612c3078313030612c3078612c,
  0x202020203078612c3078612c3078612c3078612c3078333030612c3078663030612c3078393030612c3078612c3078612c3078612c3078612c3078313030612c3078612c3078612c3078612c3078333030612c,
  0x202020203078663030612c3078333030612c3078663030612c3078313030612c3078612c3078313030612c3078612c3078612c3078612c3078612c3078612c3078612c3078612c3078612c3078612c3078612c,
  0x202020203078612c3078612c3078313030612c3078313030612c3078313030612c3078313030612c3078313030612c3078313030612c3078313030612c3078313030612c3078313030612c3078313030612c3078313030612c3078313030612c3078313030612c3078313030612c,
  0x202020203078313030612c3078313030612c3078313030612c3078313030612c3078313030612c3078612c3078313030612c3078313030612c3078313030612c3078313030612c3078612c3078612c3078313030612c3078612c3078313030612c3078612c,
  0x202020203078612c3078313030612c3078612c3078333030612c3078663030612c3078333030612c3078663030612c3078612c3078612c3078612c3078612c3078612c3078333030612c3078663030612c3078612c3078612c,
  0x202020203078612c3078612c3078612c3078612c3078333030612c3078663030612c3078313030612c3078612c3078612c3078612c3078612c3078612c3078612c3078612c3078612c3078612c,
  0x202020203078612c3078612c3078612c3078612c3078612c3078612c3078612c3078612c3078612c3078612c3078612c3078612c3078612c3078612c3078612c3078313030612c,
  0x202020203078313030612c3078612c3078612c3078612c3078612c3078612c3078612c3078612c3078333030612c3078663030612c3078612c3078612c3078612c3078612c3078313030612c3078313030612c,
  0x202020203078313030612c3078313030612c3078612c3078313030612c3078313030612c3078612c3078612c3078313030612c3078313030612c3078612c3078612c3078612c3078612c3078333030612c3078663030612c3078333030612c,
  0x202020203078663030612c3078333030612c3078663030612c3078333030612c3078663030612c3078333030612c3078663030612c3078333030612c3078663030612c3078333030612c3078663030612c3078333030612c3078663030612c3078333030612c3078663030612c3078333030612c]

/-- UnicodeData/BidiPropsData.py:522-777 the lines. -/
def bidiText3 : List Nat :=
 [0x202020203078663030612c3078333030612c3078663030612c3078333030612c3078663030612c3078333030612c3078663030612c3078333030612c3078663030612c3078333030612c3078663030612c3078333030612c3078663030612c3078333030612c3078663030612c3078333030612c,
  0x202020203078663030612c3078333030612c3078663030612c3078313030612c3078612c3078612c3078333030612c3078663030612c3078333030612c3078663030612c3078333030612c3078663030612c3078333030612c3078663030612c3078612c3078333030612c,
  0x202020203078663030612c3078333030612c3078663030612c3078333030612c3078663030612c3078333030612c3078663030612c3078333030612c3078663030612c3078333030612c3078663030612c3078333030612c3078663030612c3078333030612c3078663030612c3078333030612c,
  0x202020203078663030612c3078333030612c3078663030612c3078333030612c3078663030612c3078333030612c3078663030612c3078612c3078612c3078612c3078612c3078612c3078313030612c3078612c3078393030612c3078612c,
  0x202020203078612c3078612c3078612c3078612c3078612c3078612c3078612c3078612c3078612c3078612c3078612c3078612c3078612c3078612c3078612c3078612c,
  0x202020203078612c3078612c3078612c3078612c302c302c3078612c3078612c3078612c3078612c3078612c3078612c3078612c3078612c3078612c3078612c,
  0x202020203078612c3078612c3078612c3078612c3078612c3078612c3078612c3078612c3078612c3078612c3078612c3078612c3078612c3078612c302c3078612c,
  0x202020203078612c3078612c3078612c3078612c3078612c3078612c3078612c3078612c3078612c3078612c3078612c3078612c3078612c3078612c3078612c3078612c,
  0x202020203078612c3078612c3078612c3078612c3078612c3078612c3078612c3078612c3078612c3078612c3078612c3078612c3078612c3078612c3078393030612c3078612c,
  0x20202020302c302c302c302c302c3078612c3078612c3078612c3078612c3078612c3078612c302c302c302c302c307862312c,
  0x20202020307862312c307862312c302c302c302c302c302c302c302c3078612c3078612c3078612c3078612c3078612c3078612c3078612c,
  0x20202020302c302c302c302c302c302c302c302c302c302c302c302c302c302c302c302c,
  0x20202020302c302c302c302c302c302c302c302c302c302c302c302c302c302c302c307862312c,
  0x202020203078612c3078612c3078333030612c3078663030612c3078333030612c3078663030612c3078612c3078612c3078612c3078333030612c3078663030612c3078612c3078333030612c3078663030612c3078612c3078612c,
  0x202020203078612c3078612c3078612c3078612c3078612c3078612c3078612c3078612c3078612c3078612c3078612c3078612c3078333030612c3078663030612c3078612c3078612c,
  0x202020203078333030612c3078663030612c3078333130612c3078663230612c3078333130612c3078663230612c3078333130612c3078663230612c3078333130612c3078663230612c3078612c3078612c3078612c3078612c3078612c3078612c,
  0x202020203078612c3078612c3078612c3078612c3078612c3078612c3078612c3078612c3078612c3078612c3078612c3078612c3078612c3078612c3078612c3078612c,
  0x202020203078612c3078612c3078612c302c302c302c302c302c302c302c302c302c302c302c302c302c,
  0x202020203078612c3078612c3078612c3078612c3078612c3078612c3078612c3078612c3078612c3078612c3078612c3078612c3078612c3078612c3078612c3078612c,
  0x202020203078612c3078612c3078612c3078612c3078612c3078612c3078612c3078612c3078612c3078612c302c3078612c3078612c3078612c3078612c3078612c,
  0x202020203078612c3078612c3078612c3078612c3078612c3078612c3078612c3078612c3078612c3078612c3078612c3078612c3078612c3078612c3078612c3078612c,
  0x202020203078612c3078612c302c302c302c302c302c302c302c302c302c302c302c302c302c302c,
  0x20202020302c302c302c302c3078612c3078612c3078612c3078612c3078612c3078612c3078612c3078612c3078612c3078612c3078612c3078612c,
  0x20202020302c302c302c302c3078612c302c302c302c302c302c302c302c302c302c307862312c307862312c,
  0x20202020307862312c307862312c302c302c3078612c302c302c302c302c302c3078612c3078612c302c302c302c302c,
  0x20202020302c3078612c3078612c3078612c392c3078612c3078612c3078612c3078612c302c302c302c3078333130612c3078663230612c3078333130612c3078663230612c,
  0x202020203078333130612c3078663230612c3078333130612c3078663230612c3078333130612c3078663230612c3078612c3078612c3078333130612c3078663230612c3078333130612c3078663230612c3078333130612c3078663230612c3078333130612c3078663230612c,
  0x202020203078612c3078612c3078612c3078612c302c302c302c302c302c302c302c302c302c302c302c302c,
  0x20202020302c302c302c302c302c302c302c302c302c302c302c302c302c307862312c307862312c3078612c,
  0x202020203078612c302c302c302c302c302c302c302c302c302c302c302c302c302c302c302c,
  0x20202020302c302c302c302c3078612c3078612c3078612c3078612c3078612c3078612c3078612c3078612c3078612c3078612c3078612c3078612c,
  0x202020203078612c3078612c3078612c3078612c302c302c302c302c302c302c302c302c302c302c302c302c,
  0x20202020302c302c302c302c302c302c302c302c302c302c302c302c302c302c302c302c,
  0x202020203078612c3078612c3078612c302c302c302c302c302c302c302c302c302c302c302c302c302c,
  0x20202020302c302c302c302c302c3078612c3078612c3078612c3078612c3078612c3078612c3078612c3078612c3078612c3078612c3078612c,
  0x202020203078612c3078612c3078612c3078612c302c302c302c302c302c302c302c302c302c302c302c302c,
  0x202020203078612c3078612c3078612c3078612c302c302c302c302c302c302c302c302c302c302c302c302c,
  0x20202020302c302c302c302c302c302c302c302c302c302c302c3078612c3078612c3078612c3078612c302c,
  0x20202020302c302c302c302c302c302c302c302c302c302c302c302c302c3078612c3078612c3078612c,
  0x20202020302c302c302c302c302c302c302c302c302c302c302c302c302c302c302c302c,
  0x20202020302c302c302c307862312c307862312c307862312c307862312c3078612c307862312c307862312c307862312c307862312c307862312c307862312c307862312c307862312c,
  0x20202020307862312c307862312c3078612c3078612c302c302c302c302c302c302c302c302c3078612c302c302c302c,
  0x20202020302c302c302c302c302c302c302c302c302c302c302c302c302c302c302c302c,
  0x20202020302c302c302c302c302c302c307862312c302c302c302c307862312c302c302c302c302c307862312c,
  0x20202020302c302c302c302c302c302c302c302c302c302c302c302c302c302c302c302c,
  0x20202020302c302c302c302c302c307862312c307862312c302c3078612c3078612c3078612c3078612c307862312c302c302c302c,
  0x20202020302c302c302c302c302c302c302c302c342c342c302c302c302c302c302c302c,
  0x20202020307834302c307834302c307834302c307834302c307834302c307834302c307834302c307834302c307834302c307834302c307834302c307834302c307834302c307834302c307834302c307834302c,
  0x20202020307834302c307834302c307836302c302c3078612c3078612c3078612c3078612c302c302c302c302c302c302c302c302c,
  0x20202020307862312c307862312c307862312c307862312c307862312c307862312c307862312c307862312c307862312c307862312c307862312c307862312c307862312c307862312c307862312c307862312c,
  0x20202020307862312c307862312c302c302c302c302c302c302c302c302c302c302c302c302c302c307862312c,
  0x20202020302c302c302c302c302c302c307862312c307862312c307862312c307862312c307862312c307862312c307862312c307862312c302c302c,
  0x20202020302c302c302c302c302c302c302c302c302c302c302c302c302c302c302c302c,
  0x20202020302c302c302c307862312c307862312c307862312c307862312c307862312c307862312c307862312c307862312c307862312c307862312c307862312c302c302c,
  0x20202020302c302c302c302c302c302c302c302c302c302c302c302c302c302c302c302c,
  0x20202020302c302c302c307862312c302c302c307862312c307862312c307862312c307862312c302c302c307862312c307862312c302c302c,
  0x20202020302c302c302c302c302c302c302c302c302c307862312c307862312c307862312c307862312c307862312c307862312c302c,
  0x20202020302c307862312c307862312c302c302c307862312c307862312c302c302c302c302c302c302c302c302c302c,
  0x20202020302c302c302c307862312c302c302c302c302c302c302c302c302c307862312c302c302c302c,
  0x20202020302c302c302c302c302c302c302c302c302c302c302c302c302c302c302c302c,
  0x20202020307862312c302c307862312c307862312c307862312c302c302c307862312c307862312c302c302c302c302c302c307862312c307862312c,
  0x20202020302c302c302c302c302c302c302c302c302c302c302c302c307862312c307862312c302c302c,
  0x20202020302c302c302c302c302c302c307862312c302c302c302c302c302c302c302c302c302c,
  0x20202020302c302c3078612c3078612c302c302c302c302c302c302c302c302c302c302c302c302c,
  0x20202020302c302c302c302c302c302c302c302c302c307862312c302c302c307862312c302c302c302c,
  0x20202020302c307862312c302c302c302c302c302c302c302c302c302c302c302c302c302c302c,
  0x20202020302c302c302c302c312c312c312c312c312c312c312c312c312c332c312c312c,
  0x20202020312c312c312c312c312c312c312c312c312c312c312c312c312c312c312c312c,
  0x20202020312c312c312c312c3078642c3078642c3078642c3078642c3078642c3078642c3078642c3078642c3078642c3078642c3078642c3078642c,
  0x202020203078642c3078642c3078642c3078642c302c302c302c302c302c302c302c302c302c302c302c302c,
  0x20202020302c302c302c302c302c302c302c302c302c302c302c302c302c302c302c302c,
  0x20202020302c312c307862312c312c3078642c3078642c3078642c3078642c3078642c3078642c3078642c3078642c3078642c3078642c3078642c3078642c,
  0x202020203078642c3078642c3078642c3078642c3078642c3078642c3078642c3078642c3078642c3078642c3078642c3078642c3078642c3078642c3078642c3078642c,
  0x202020203078642c3078642c3078612c3078612c3078642c3078642c3078642c3078642c3078642c3078642c3078642c3078642c3078642c3078642c3078642c3078642c,
  0x202020203078642c3078642c3078642c3078642c307831322c307831322c307831322c307831322c307831322c307831322c307831322c307831322c307831322c307831322c307831322c307831322c,
  0x20202020307831322c307831322c307831322c307831322c3078642c3078642c3078642c3078642c3078642c3078642c3078642c3078642c3078642c3078642c3078642c3078642c,
  0x202020203078642c3078612c3078642c3078642c307862312c307862312c307862312c307862312c307862312c307862312c307862312c307862312c307862312c307862312c307862312c307862312c,
  0x20202020307862312c307862312c307862312c307862312c3078612c3078612c3078612c3078612c3078612c3078612c3078612c3078612c3078612c3078612c302c302c,
  0x20202020302c302c302c302c307862312c307862312c307862312c307862312c307862312c307862312c307862312c307862312c307862312c307862312c307862312c307862312c,
  0x20202020307862312c307862312c307862312c307862312c3078612c3078612c3078612c3078612c3078612c3078612c3078612c3078612c3078612c3078612c3078612c3078612c,
  0x202020203078612c3078612c3078612c3078612c362c3078612c362c302c3078612c362c3078612c3078612c3078612c3078333130612c3078663230612c3078333130612c,
  0x202020203078663230612c3078333130612c3078663230612c342c3078612c3078612c332c332c3078333030612c3078663030612c3078612c302c3078612c342c342c3078612c,
  0x20202020302c302c302c302c3078642c3078642c3078642c3078642c3078642c3078642c3078642c3078642c3078642c3078642c3078642c3078642c,
  0x202020203078642c3078642c3078642c3078642c3078642c3078642c3078642c3078642c3078642c3078642c3078642c3078642c3078642c3078642c3078642c3078642c,
  0x202020203078642c3078642c3078642c307862322c302c3078612c3078612c342c342c342c3078612c3078612c3078333130612c3078663230612c3078612c332c,
  0x20202020362c332c362c362c322c322c322c322c322c322c322c322c322c322c362c3078612c,
  0x202020203078353030612c3078612c3078643030612c3078612c3078612c302c302c302c302c302c302c302c302c302c302c302c,
  0x20202020302c302c302c302c302c302c302c302c302c302c302c302c302c302c302c3078353130612c,
  0x202020203078612c3078643230612c3078612c3078333130612c3078663230612c3078612c3078333130612c3078663230612c3078612c3078612c302c302c302c302c302c302c,
  0x20202020302c302c302c302c302c302c302c302c302c302c302c302c302c302c302c302c,
  0x20202020302c302c302c302c342c342c3078612c3078612c3078612c342c342c302c3078612c3078612c3078612c3078612c,
  0x202020203078612c3078612c3078612c302c307831322c307831322c307831322c307831322c307831322c307831322c307831322c307831322c307831322c307861612c307861612c307861612c,
  0x202020203078612c3078612c307831322c307831322c302c3078612c302c302c302c302c302c302c302c302c302c302c,
  0x20202020302c302c302c302c302c302c302c302c302c302c302c302c302c302c302c302c,
  0x20202020302c302c302c302c3078612c3078612c3078612c3078612c3078612c3078612c3078612c3078612c3078612c3078612c3078612c3078612c,
  0x202020203078612c302c302c302c3078612c3078612c3078612c3078612c3078612c3078612c3078612c3078612c3078612c3078612c3078612c3078612c,
  0x202020203078612c302c302c302c307862312c322c322c322c322c322c322c322c322c322c322c322c,
  0x20202020322c322c322c322c322c322c322c322c322c322c322c322c322c322c322c322c,
  0x20202020302c302c302c302c302c302c302c302c302c302c302c302c302c302c302c302c,
  0x20202020302c302c302c302c302c302c307862312c307862312c307862312c307862312c307862312c302c302c302c302c302c,
  0x20202020312c312c312c312c312c312c312c312c312c312c312c312c312c312c312c312c,
  0x20202020312c312c312c312c312c312c312c312c312c312c312c312c312c312c312c3078612c,
  0x20202020312c307862312c307862312c307862312c312c307862312c307862312c312c312c312c312c312c307862312c307862312c307862312c307862312c,
  0x20202020312c312c312c312c312c312c312c312c312c312c312c312c312c312c312c312c,
  0x20202020312c312c312c312c312c312c312c312c307862312c307862312c307862312c312c312c312c312c307862312c,
  0x20202020307834312c307838312c312c312c307838312c307862312c307862312c312c312c312c312c307834312c307834312c307834312c307834312c307838312c,
  0x20202020312c312c312c312c312c312c312c312c312c312c312c312c312c312c312c312c,
  0x20202020307834312c307834312c307834312c307834312c307834312c307838312c312c307838312c312c307838312c307838312c312c312c307836312c307838312c307838312c,
  0x20202020307838312c307838312c307838312c307834312c307834312c307834312c307834312c307836312c307834312c307834312c307834312c307834312c307834312c307838312c307834312c307834312c,
  0x20202020312c312c312c312c312c312c312c312c312c312c312c312c312c312c312c312c,
  0x20202020312c312c312c312c312c312c312c312c312c3078612c3078612c3078612c3078612c3078612c3078612c3078612c,
  0x20202020307834312c307838312c307834312c307838312c307838312c307838312c307834312c307834312c307834312c307838312c307834312c307834312c307838312c307834312c307838312c307838312c,
  0x20202020307834312c307838312c312c312c312c312c312c312c312c312c312c312c312c312c312c312c,
  0x20202020312c307838312c307838312c307838312c307838312c307834312c307834312c312c312c312c312c312c312c312c312c312c,
  0x20202020312c312c312c312c312c312c312c312c307834642c307834642c307838642c307834642c307862312c307862312c307862312c307862312c,
  0x202020203078642c3078642c3078642c3078642c3078642c3078642c3078642c3078642c352c352c352c352c352c352c352c352c,
  0x20202020352c352c3078642c3078642c3078642c3078642c3078642c3078642c307836642c307834642c307834642c307834642c307834642c307834642c307834642c307834642c,
  0x20202020307834642c307834642c307834642c307834642c307834642c307834642c307834642c307834642c307834642c307834642c307834642c307834642c307834642c307834642c307834642c307834642c,
  0x20202020307834642c307834642c307834642c307834642c307834642c307834642c307834642c307834642c352c352c352c352c352c352c352c352c,
  0x20202020352c352c352c352c352c352c352c352c352c352c352c352c352c352c352c352c,
  0x20202020352c352c352c352c352c352c352c312c312c312c312c312c312c312c312c312c,
  0x20202020312c312c312c307862312c307862312c312c312c312c312c312c312c312c312c312c312c312c,
  0x20202020312c312c312c312c312c312c312c312c307834642c307834642c307834642c307838642c307834642c307834642c307834642c307834642c,
  0x20202020307834642c307834642c307834642c307834642c307834642c307834642c307834642c307834642c307834642c3078642c307862312c307862312c307862312c307862312c307862312c307862312c,
  0x20202020307862312c307862312c307862312c307862312c307862312c307834642c307834642c307834642c307838642c3078642c3078642c3078642c3078642c3078642c3078642c3078642c,
  0x202020203078642c3078642c3078642c3078642c3078642c3078642c3078642c3078642c3078642c3078642c3078642c3078642c312c312c312c312c,
  0x20202020312c312c312c312c312c312c312c312c312c312c312c312c307834312c312c307834312c307834312c,
  0x20202020307838312c307838312c307838312c312c307834312c307838312c307838312c307834312c307834312c307838312c307834312c307834312c312c307834312c307838312c307838312c,
  0x20202020307834312c312c312c312c312c307838312c307834312c307836312c312c312c312c312c312c312c312c312c,
  0x20202020312c312c312c312c312c312c312c312c312c312c312c312c302c302c302c302c,
  0x20202020302c302c302c302c302c302c302c302c302c302c302c302c302c302c302c302c,
  0x20202020302c302c302c302c307862312c307862312c307862312c307862312c307862312c307862312c307862312c307862312c307862312c307862312c307862312c302c,
  0x20202020302c302c302c302c302c302c302c302c302c302c3078612c3078612c3078612c3078612c3078612c3078612c,
  0x202020203078612c3078612c3078612c3078612c3078612c3078612c3078612c3078612c3078612c3078612c302c302c302c302c302c302c,
  0x20202020302c302c302c302c302c302c302c302c302c302c302c302c302c302c302c302c,
  0x20202020302c302c302c307862312c307862312c307862312c307862312c302c302c307862312c307862312c302c302c302c302c302c,
  0x20202020302c302c302c307862312c307862312c307862312c307862312c307862312c302c307862312c307862312c307862312c307862312c307862312c307862312c307862312c,
  0x20202020307862312c302c302c302c302c302c302c302c302c302c302c302c302c302c302c302c,
  0x20202020302c302c302c302c302c302c302c307862312c302c302c302c302c302c302c302c302c,
  0x20202020302c302c302c302c302c302c302c302c302c302c302c302c302c302c307862312c307862312c,
  0x20202020307862312c307862312c307862312c307862312c307862312c307862312c307862312c302c302c302c302c302c302c302c302c302c,
  0x20202020302c307862312c307862312c307862312c307862312c302c302c307862312c302c302c302c302c302c302c302c302c,
  0x20202020302c302c302c302c302c302c302c302c302c302c302c307862312c307862312c307862312c302c302c,
  0x20202020307862312c302c307862312c307862312c302c302c302c302c302c302c307862312c302c302c302c302c307862312c,
  0x20202020307862312c307862312c307862312c307862312c307862312c307862312c307862312c302c302c302c302c302c302c302c302c302c,
  0x20202020302c302c302c302c302c302c302c302c302c302c302c302c302c302c307862312c307862312c,
  0x20202020307862312c307862312c307862312c307862312c307862312c302c302c302c307862312c307862312c307862312c307862312c307862312c302c302c302c,
  0x20202020302c302c302c302c302c302c302c302c302c302c307862312c307862312c307862312c302c307862312c302c,
  0x20202020302c302c302c302c302c302c302c302c302c302c302c302c302c302c302c302c,
  0x20202020302c302c302c302c302c302c307862312c302c302c302c302c302c302c302c302c302c,
  0x20202020302c302c302c302c302c302c302c302c302c302c302c307862312c307862312c307862312c307862312c307862312c,
  0x20202020307862312c302c307862312c302c302c302c302c307862312c307862312c302c307862312c307862312c302c302c302c302c,
  0x20202020302c302c302c302c302c302c302c302c302c302c302c302c302c302c302c302c,
  0x20202020302c302c302c302c302c302c302c302c302c302c307862312c307862312c307862312c307862312c302c302c,
  0x20202020302c302c302c302c307862312c307862312c302c307862312c307862312c302c302c302c302c302c302c302c,
  0x20202020302c302c302c302c302c302c302c302c302c302c302c302c302c302c302c302c,
  0x20202020302c302c302c302c307862312c307862312c302c302c302c302c302c302c302c302c302c302c,
  0x20202020302c302c302c302c302c302c302c302c302c302c302c307862312c307862312c307862312c307862312c307862312c,
  0x20202020307862312c307862312c307862312c302c302c307862312c302c307862312c3078612c3078612c3078612c3078612c3078612c3078612c3078612c3078612c,
  0x202020203078612c3078612c3078612c3078612c3078612c302c302c302c302c302c302c302c302c302c302c302c,
  0x20202020302c302c302c302c302c302c302c302c302c302c302c307862312c302c307862312c302c302c,
  0x20202020307862312c307862312c307862312c307862312c307862312c307862312c302c307862312c302c302c302c302c302c302c302c302c,
  0x20202020302c302c307862312c307862312c307862312c307862312c302c307862312c307862312c307862312c307862312c307862312c302c302c302c302c,
  0x20202020302c302c302c302c302c302c302c302c302c302c302c302c302c302c302c302c,
  0x20202020302c302c302c307862312c307862312c307862312c307862312c307862312c307862312c307862312c307862312c307862312c302c307862312c307862312c302c,
  0x20202020302c302c302c302c302c302c302c302c302c302c302c302c302c302c302c302c,
  0x20202020302c302c302c302c302c302c302c302c302c302c302c307862312c307862312c302c307862312c302c,
  0x20202020302c302c302c307862312c302c302c302c302c302c302c302c302c302c302c302c302c,
  0x20202020302c302c302c302c302c302c302c302c302c302c302c302c302c302c302c302c,
  0x20202020307862312c307862312c307862312c307862312c302c302c307862312c307862312c302c302c302c302c302c307862312c307862312c307862312c,
  0x20202020307862312c307862312c307862312c307861302c307861302c307862312c307862312c302c302c302c302c302c302c302c302c302c,
  0x20202020302c302c302c302c302c302c302c302c302c302c302c302c302c302c302c307862312c,
  0x20202020307862312c307862312c307862312c307862312c307862312c302c302c307862312c307862312c307862312c307862312c302c302c302c302c302c,
  0x20202020302c302c302c307862312c302c302c302c302c302c302c302c302c302c307862312c307862312c307862312c,
  0x20202020307862312c307862312c307862312c302c302c307862312c307862312c307862312c302c302c302c302c302c302c302c302c,
  0x20202020302c302c307862312c307862312c307862312c307862312c307862312c307862312c307862312c307862312c307862312c307862312c307862312c307862312c307862312c302c,
  0x20202020307862312c307862312c302c302c302c302c302c302c302c302c302c302c302c302c302c302c,
  0x20202020302c302c302c302c307862312c307862312c307862312c307862312c307862312c307862312c307862312c302c307862312c307862312c307862312c307862312c,
  0x20202020307862312c307862312c302c307861302c307862312c307862312c307862312c307862312c307862312c307862312c307862312c307862312c302c302c307862312c307862312c,
  0x20202020307862312c307862312c307862312c307862312c307862312c302c307862312c307862312c302c307862312c307862312c302c302c302c302c302c,
  0x20202020302c302c302c302c302c302c302c302c302c302c302c302c302c302c307862312c307862312c,
  0x20202020307862312c307862312c307862312c307862312c307862312c307862312c307862312c307862312c307862312c307862312c307862312c307862312c302c302c302c302c,
  0x20202020302c302c302c302c302c302c302c302c302c302c302c302c302c307862312c307862312c307862312c,
  0x20202020307862312c307862312c307862312c302c302c302c307862312c302c307862312c307862312c302c307862312c307862312c307862312c307862312c307862312c,
  0x20202020307862312c307862312c302c307862312c302c302c302c302c302c302c302c302c302c302c302c302c,
  0x20202020302c302c302c302c302c302c302c302c302c302c302c302c307862312c307862312c302c302c,
  0x20202020302c307862312c302c307862312c302c302c302c302c302c302c302c302c342c3078612c3078612c3078612c,
  0x202020203078612c3078612c3078612c3078612c3078612c3078612c3078612c3078612c3078612c3078612c3078612c3078612c3078612c3078612c302c302c,
  0x20202020302c302c302c302c302c302c302c302c302c302c302c302c302c302c302c302c,
  0x20202020302c302c302c302c302c3078612c3078612c3078612c3078612c3078612c3078612c3078612c3078612c342c342c342c,
  0x20202020302c302c302c302c302c302c302c302c302c302c302c302c302c302c302c302c,
  0x20202020307861302c307861302c307861302c307861302c307861302c307861302c307861302c307861302c307861302c302c302c302c302c302c302c302c,
  0x20202020302c302c302c302c302c302c302c302c302c302c302c302c307862312c307862312c307862312c307862312c,
  0x20202020307862312c302c302c302c302c302c302c302c302c302c302c302c302c302c302c302c,
  0x20202020302c302c302c302c307862312c307862312c307862312c307862312c307862312c307862312c307862312c302c302c302c302c302c,
  0x20202020302c302c302c302c302c302c302c302c302c302c302c307862312c307862312c307862312c307862312c302c,
  0x20202020302c302c302c302c302c302c302c302c302c302c302c302c302c302c3078612c302c,
  0x20202020307862312c302c302c302c302c302c302c302c302c302c302c302c302c302c302c302c,
  0x20202020302c302c302c302c302c302c302c302c302c302c302c302c307862322c307862322c307862322c307862322c,
  0x20202020302c302c302c302c302c302c302c302c302c302c302c302c302c302c302c302c,
  0x20202020302c302c302c302c302c302c302c302c302c302c302c302c302c302c302c307862312c,
  0x20202020307862312c307862312c302c302c302c302c302c302c302c302c302c307862322c307862322c307862322c307862322c307862322c,
  0x20202020307862322c307862322c307862322c307862312c307862312c307862312c307862312c307862312c307862312c307862312c307862312c302c302c307862312c307862312c307862312c,
  0x20202020307862312c307862312c307862312c307862312c302c302c302c302c302c302c302c302c302c302c302c302c,
  0x20202020302c302c302c302c302c302c302c302c302c302c307862312c307862312c307862312c307862312c302c302c,
  0x20202020302c302c302c302c302c302c302c302c302c302c302c302c302c302c302c302c,
  0x202020203078612c3078612c307862312c307862312c307862312c3078612c302c302c302c302c302c302c302c302c302c302c,
  0x20202020302c302c302c302c302c302c302c302c302c302c302c302c302c302c302c302c,
  0x20202020302c302c302c3078313030612c302c302c302c302c302c302c302c302c302c302c302c302c,
  0x20202020302c302c302c302c302c302c302c302c302c3078313030612c302c302c302c302c302c302c,
  0x20202020302c302c302c302c302c302c302c302c302c302c302c302c302c302c302c302c,
  0x20202020302c302c302c3078313030612c302c302c302c302c302c302c302c302c302c302c322c322c,
  0x20202020322c322c322c322c322c322c322c322c322c322c322c322c322c322c322c322c,
  0x20202020322c322c322c322c322c322c322c322c322c322c322c322c322c322c322c322c,
  0x20202020307862312c307862312c307862312c307862312c307862312c307862312c307862312c307862312c307862312c307862312c307862312c307862312c307862312c307862312c307862312c307862312c,
  0x20202020307862312c307862312c307862312c307862312c307862312c307862312c307862312c302c302c302c302c307862312c307862312c307862312c307862312c307862312c,
  0x20202020307862312c307862312c307862312c307862312c307862312c307862312c307862312c307862312c307862312c302c302c302c302c302c302c302c,
  0x20202020302c307862312c302c302c302c302c302c302c302c302c302c302c307862312c302c302c302c,
  0x20202020302c302c302c302c302c302c302c302c302c302c302c302c302c302c302c302c,
  0x20202020302c302c302c307862312c307862312c307862312c307862312c307862312c302c307862312c307862312c307862312c307862312c307862312c307862312c307862312c,
  0x20202020307862312c307862312c307862312c307862312c307862312c307862312c307862312c307862312c302c302c302c302c302c302c302c302c,
  0x20202020302c302c302c302c302c302c302c302c307862312c307862312c307862312c307862312c307862312c307862312c307862312c302c,
  0x20202020307862312c307862312c307862312c307862312c307862312c307862312c307862312c307862312c307862312c307862312c307862312c307862312c307862312c307862312c307862312c307862312c,
  0x20202020307862312c302c302c307862312c307862312c307862312c307862312c307862312c307862312c307862312c302c307862312c307862312c302c307862312c307862312c,
  0x20202020307862312c307862312c307862312c302c302c302c302c302c302c302c302c302c302c302c302c302c,
  0x20202020302c302c302c302c302c302c302c302c307862312c307862312c307862312c307862312c302c302c302c302c,
  0x20202020302c302c302c302c302c302c302c302c302c302c302c342c312c312c312c312c,
  0x20202020312c312c312c312c312c312c312c312c312c312c312c312c307862312c307862312c307862312c307862312c,
  0x20202020307862312c307862312c307862312c312c312c312c312c312c312c312c312c312c307834312c307834312c307834312c307834312c,
  0x20202020307834312c307834312c307834312c307834312c307834312c307834312c307834312c307834312c307834312c307834312c307834312c307834312c307834312c307834312c307834312c307834312c,
  0x20202020307834312c307834312c307834312c307834312c307834312c307834312c307834312c307834312c307834312c307834312c307834312c307834312c307862312c307862312c307862312c307862312c,
  0x20202020307862312c307862312c307862312c307861312c312c312c312c312c312c312c312c312c312c312c312c312c,
  0x20202020312c312c312c312c312c312c312c312c3078642c3078642c3078642c3078642c3078642c3078642c3078642c3078642c,
  0x202020203078642c3078642c3078642c3078642c3078642c3078642c3078642c3078642c3078612c3078612c3078642c3078642c3078642c3078642c3078642c3078642c,
  0x202020203078642c3078642c3078642c3078642c3078642c3078642c3078642c3078642c3078612c3078612c3078612c3078612c3078612c3078612c3078612c3078612c,
  0x202020203078612c3078612c3078612c3078612c302c302c302c302c3078612c3078612c3078612c3078612c3078612c3078612c3078612c3078612c,
  0x202020203078612c3078612c3078612c3078612c3078612c3078612c3078612c3078612c3078612c3078612c3078612c302c302c3078612c3078612c3078612c,
  0x202020203078612c3078612c3078612c3078612c3078612c3078612c3078612c3078612c3078612c3078612c3078612c3078612c302c3078612c3078612c3078612c,
  0x202020203078612c3078612c3078612c3078612c3078612c3078612c3078612c3078612c3078612c3078612c3078612c3078612c322c322c322c322c,
  0x20202020322c322c322c322c322c322c322c3078612c3078612c3078612c3078612c3078612c302c302c302c302c,
  0x20202020302c302c302c302c302c302c302c302c302c302c302c302c302c302c3078612c3078612c,
  0x202020203078612c3078612c3078612c3078612c302c302c302c302c302c302c302c302c302c302c302c302c,
  0x20202020302c302c302c302c302c3078612c302c302c302c302c302c302c302c302c302c302c,
  0x20202020302c302c302c302c302c302c302c302c3078612c3078612c3078612c3078612c3078612c3078612c3078612c3078612c,
  0x202020203078612c3078612c3078612c3078612c3078612c3078612c3078612c3078612c3078612c3078612c3078612c3078612c3078612c3078612c3078612c3078612c,
  0x202020203078612c302c302c302c302c302c302c302c3078612c3078612c3078612c3078612c3078612c3078612c3078612c3078612c,
  0x20202020302c302c302c302c302c302c302c302c3078612c3078612c3078612c3078612c3078612c3078612c3078612c3078612c,
  0x202020203078612c3078612c302c302c302c302c302c302c3078612c3078612c3078612c3078612c3078612c3078612c3078612c3078612c,
  0x20202020302c302c302c302c302c302c302c302c3078612c3078612c3078612c3078612c3078612c3078612c3078612c3078612c,
  0x202020203078612c3078612c3078612c3078612c3078612c3078612c3078612c3078612c3078612c3078612c302c302c3078612c3078612c302c302c,
  0x20202020302c302c302c302c302c302c302c302c302c302c302c302c3078612c3078612c3078612c3078612c,
  0x202020203078612c3078612c3078612c3078612c3078612c3078612c3078612c3078612c3078612c3078612c3078612c3078612c3078612c3078612c3078612c3078612c,
  0x202020203078612c3078612c3078612c3078612c3078612c302c3078612c3078612c3078612c3078612c3078612c3078612c3078612c3078612c3078612c3078612c,
  0x202020203078612c3078612c3078612c3078612c3078612c3078612c302c302c3078612c3078612c3078612c3078612c3078612c302c302c302c,
  0x202020203078612c3078612c3078612c302c302c302c302c302c3078612c3078612c3078612c3078612c3078612c3078612c3078612c302c,
  0x20202020302c302c302c302c302c302c302c302c3078612c3078612c3078612c3078612c3078612c3078612c3078612c3078612c]

/-- UnicodeData/BidiPropsData.py:778-793 the lines. -/
def bidiText4 : List Nat :=
 [0x202020203078612c3078612c3078612c3078612c3078612c3078612c3078612c3078612c3078612c302c302c302c302c302c302c302c,
  0x202020203078612c3078612c3078612c3078612c3078612c3078612c3078612c302c302c302c302c302c302c302c302c302c,
  0x20202020302c302c302c302c3078612c3078612c3078612c3078612c3078612c3078612c3078612c302c302c302c302c302c,
  0x20202020302c302c302c302c3078612c3078612c3078612c3078612c3078612c3078612c3078612c3078612c3078612c3078612c3078612c3078612c,
  0x202020203078612c3078612c3078612c3078612c3078612c3078612c3078612c302c3078612c3078612c3078612c3078612c3078612c3078612c3078612c3078612c,
  0x202020203078612c3078612c3078612c3078612c302c302c302c302c302c302c302c302c302c302c302c302c,
  0x20202020302c302c302c302c322c322c322c322c322c322c322c322c322c322c302c302c,
  0x20202020302c302c302c302c302c302c302c302c302c302c302c302c302c302c302c302c,
  0x20202020302c302c302c302c302c302c302c302c302c302c302c302c302c302c307831322c307831322c,
  0x20202020307862322c307862322c307862322c307862322c307862322c307862322c307862322c307862322c307862322c307862322c307862322c307862322c307862322c307862322c307862322c307862322c,
  0x20202020307862322c307862322c307862322c307862322c307862322c307862322c307862322c307862322c307862322c307862322c307862322c307862322c307862322c307862322c307862322c307862322c,
  0x20202020307831322c307862322c307831322c307831322c307831322c307831322c307831322c307831322c307831322c307831322c307831322c307831322c307831322c307831322c307831322c307831322c,
  0x20202020307831322c307831322c307831322c307831322c307831322c307831322c307831322c307831322c307831322c307831322c307831322c307831322c307831322c307831322c307831322c307831322c,
  0x20202020307831322c307831322c307831322c307831322c307862312c307862312c307862312c307862312c307862312c307862312c307862312c307862312c307862312c307862312c307862312c307862312c,
  0x20202020307862312c307862312c307862312c307862312c307831322c307831322c307831322c307831322c307831322c307831322c307831322c307831322c307831322c307831322c307831322c307831322c,
  0x20202020307831322c307831322c307831322c307831322c302c302c302c30]

/-- UnicodeData/BidiPropsData.py:794-796 the lines. -/
def bidiText5 : List Nat :=
 [0x5d,
  0x0,
  0x75626964695f70726f70735f6d6972726f7273203d205b]

/-- UnicodeData/BidiPropsData.py:797-799 the lines. -/
def bidiText6 : List Nat :=
 [0x2020202030783230303061622c307862622c3078343230323231352c3078346530323231662c3078336530323232302c3078336130323232312c3078336330323232322c3078346330323232342c3078323230323234332c3078313430323234352c3078313230323234632c3078343030323239382c3078343430323261362c3078343830323261382c3078343630323261392c3078346130323261622c,
  0x202020203078333830323262382c3078313030323263642c3078326530323266322c3078333030323266332c3078333230323266342c3078333430323266362c3078333630323266372c3078323430323266612c3078323630323266622c3078323830323266632c3078326130323266642c3078326330323266652c3078323030323764632c30786130323939622c30786330323961302c30783830323961332c,
  0x202020203078313630323962382c30783430323966352c3078313830326164652c3078316330326165332c3078316130326165342c3078316530326165352c30786530326165652c3078363032626665]

/-- UnicodeData/BidiPropsData.py:800-802 the lines. -/
def bidiText7 : List Nat :=
 [0x5d,
  0x0,
  0x75626964695f70726f70735f6a674172726179203d205b]

/-- UnicodeData/BidiPropsData.py:803-845 the lines. -/
def bidiText8 : List Nat :=
 [0x20202020307832642c302c332c332c307832632c332c307832642c332c342c307832612c342c342c3078642c3078642c3078642c362c,
  0x20202020362c307831662c307831662c307832332c307832332c307832312c307832312c307832382c307832382c312c312c3078622c3078622c307833372c307833372c307833372c,
  0x20202020302c392c307831642c307831332c307831362c307831382c307831612c307831302c307832632c307832642c307832642c302c302c302c302c302c,
  0x20202020302c302c302c302c302c302c302c302c302c302c302c302c302c302c302c302c,
  0x20202020302c302c302c302c302c302c302c302c302c302c302c302c302c302c342c307831642c,
  0x20202020302c332c332c332c302c332c307832632c307832632c307832642c342c342c342c342c342c342c342c,
  0x20202020342c3078642c3078642c3078642c3078642c3078642c3078642c3078642c362c362c362c362c362c362c362c362c,
  0x20202020362c307831662c307831662c307831662c307831662c307831662c307831662c307831662c307831662c307831662c307832332c307832332c307832332c307832312c307832312c307832382c,
  0x20202020312c392c392c392c392c392c392c307831642c307831642c3078622c307832362c3078622c307831332c307831332c307831332c3078622c,
  0x202020203078622c3078622c3078622c3078622c3078622c307831362c307831362c307831362c307831362c307831612c307831612c307831612c307831612c307833382c307831352c3078642c,
  0x20202020307832612c307831312c307831312c3078652c307832632c307832632c307832632c307832632c307832632c307832632c307832632c307832632c307833372c307832662c307833372c307832632c,
  0x20202020307832642c307832642c307832652c307832652c302c307832612c302c302c302c302c302c302c302c302c302c302c,
  0x20202020302c302c302c302c302c302c302c302c302c302c302c302c302c302c362c307831662c,
  0x20202020302c302c302c302c302c302c302c302c302c302c307832332c307832312c312c302c302c307831352c,
  0x20202020302c302c302c302c302c302c302c302c302c302c302c302c302c302c302c302c,
  0x20202020322c302c352c3078632c3078632c372c372c3078662c307832372c307833322c307831322c307832622c307832622c307833302c307833312c307831342c,
  0x20202020307831372c307831392c307831622c307832342c3078612c382c307831632c307832302c307832322c307831652c372c307832352c307832392c352c3078632c372c,
  0x20202020302c302c302c302c302c302c302c302c302c302c302c302c302c302c302c302c,
  0x20202020302c302c302c302c302c302c302c302c302c302c302c302c302c307833352c307833342c307833332c,
  0x20202020342c342c342c342c342c342c342c3078642c3078642c362c362c307831662c307832332c312c312c312c,
  0x20202020392c392c3078622c3078622c3078622c307831382c307831382c307831612c307831612c307831612c307831362c307831662c307831662c307832332c3078642c3078642c,
  0x20202020307832332c307831662c3078642c332c332c307833372c307833372c307832642c307832632c307832632c307833362c307833362c3078642c307832332c307832332c307831332c,
  0x20202020302c302c302c302c302c302c302c302c302c302c302c302c302c302c302c302c,
  0x20202020302c302c302c302c302c302c302c302c302c302c302c302c302c302c302c302c,
  0x20202020302c302c302c302c302c302c302c302c302c302c302c302c302c302c302c302c,
  0x20202020302c302c302c302c302c302c302c302c302c302c302c302c302c302c302c302c,
  0x20202020302c302c302c302c302c302c302c302c302c302c302c302c302c302c302c302c,
  0x20202020302c302c302c302c302c302c302c302c302c302c302c302c302c302c302c302c,
  0x20202020302c302c302c302c302c302c302c302c302c302c302c302c302c302c302c302c,
  0x20202020302c302c302c302c302c302c302c302c302c302c302c302c302c302c302c302c,
  0x20202020302c302c302c302c302c302c302c302c302c302c302c302c302c302c302c302c,
  0x20202020302c302c302c302c302c302c302c302c302c302c302c302c302c302c302c302c,
  0x20202020302c302c302c302c302c302c302c302c302c302c302c302c302c302c302c302c,
  0x20202020302c302c302c302c302c302c302c302c302c302c302c302c302c302c302c302c,
  0x20202020302c302c302c302c302c302c302c302c302c302c302c302c302c302c302c302c,
  0x20202020302c302c302c302c302c302c302c302c302c302c302c302c302c302c302c302c,
  0x20202020307835642c307835612c307836302c307836332c307835652c307835662c307835392c307836312c307835622c307835632c307836322c302c302c302c302c302c,
  0x20202020302c302c302c302c302c302c302c302c302c302c302c302c302c302c302c302c,
  0x20202020302c302c302c302c302c302c302c302c302c302c302c302c302c302c302c302c,
  0x20202020302c302c302c302c302c302c302c302c302c302c302c302c302c302c302c302c,
  0x20202020342c342c3078642c307832382c392c307831642c307831362c307831382c307832642c307832642c307831662c307832632c307833392c302c362c307832312c,
  0x202020203078622c307835352c307831662c312c307831332c302c342c342c342c307831662c307832642c307835362c307835382c307835372c342c342c,
  0x20202020342c3078642c3078622c312c307835382c3078642c3078642c30783136]

/-- UnicodeData/BidiPropsData.py:846-848 the lines. -/
def bidiText9 : List Nat :=
 [0x5d,
  0x0,
  0x75626964695f70726f70735f6a67417272617932203d205b]

/-- UnicodeData/BidiPropsData.py:849-887 the lines. -/
def bidiText10 : List Nat :=
 [0x20202020307833612c307833632c307833632c307834302c307834302c307833642c302c307835322c302c307835342c307835342c302c302c307834312c307834662c307835332c,
  0x20202020307834332c307834332c307834332c307834342c307833652c307835302c307834352c307834362c307834632c307833622c307833622c307834382c307834382c307834622c307834392c307834392c,
  0x20202020307834392c307834612c302c302c307834642c302c302c302c302c302c302c307834372c307833662c307834652c307835312c307834322c,
  0x20202020302c302c302c302c302c302c302c302c302c302c302c302c302c302c302c302c,
  0x20202020302c302c302c302c302c302c302c302c302c302c302c302c302c302c302c302c,
  0x20202020302c302c302c302c302c302c302c302c302c302c302c302c302c302c302c302c,
  0x20202020302c302c302c302c302c302c302c302c302c302c302c302c302c302c302c302c,
  0x20202020302c302c302c302c302c302c302c302c302c302c302c302c302c302c302c302c,
  0x20202020302c302c302c302c302c302c302c302c302c302c302c302c302c302c302c302c,
  0x20202020302c302c302c302c302c302c302c302c302c302c302c302c302c302c302c302c,
  0x20202020302c302c302c302c302c302c302c302c302c302c302c302c302c302c302c302c,
  0x20202020302c302c302c302c302c302c302c302c302c302c302c302c302c302c302c302c,
  0x20202020302c302c302c302c302c302c302c302c302c302c302c302c302c302c302c302c,
  0x20202020302c302c302c302c302c302c302c302c302c302c302c302c302c302c302c302c,
  0x20202020302c302c302c302c302c302c302c302c302c302c302c302c302c302c302c302c,
  0x20202020302c302c302c302c302c302c302c302c302c302c302c302c302c302c302c302c,
  0x20202020302c302c302c302c302c302c302c302c302c302c302c302c302c302c302c302c,
  0x20202020302c302c302c302c302c302c302c302c302c302c302c302c302c302c302c302c,
  0x20202020302c302c302c302c302c302c302c302c302c302c302c302c302c302c302c302c,
  0x20202020302c302c302c302c302c302c302c302c302c302c302c302c302c302c302c302c,
  0x20202020302c302c302c302c302c302c302c302c302c302c302c302c302c302c302c302c,
  0x20202020302c302c302c302c302c302c302c302c302c302c302c302c302c302c302c302c,
  0x20202020302c302c302c302c302c302c302c302c302c302c302c302c302c302c302c302c,
  0x20202020302c302c302c302c302c302c302c302c302c302c302c302c302c302c302c302c,
  0x20202020302c302c302c302c302c302c302c302c302c302c302c302c302c302c302c302c,
  0x20202020302c302c302c302c302c302c302c302c302c302c302c302c302c302c302c302c,
  0x20202020302c302c302c302c302c302c302c302c302c302c302c302c302c302c302c302c,
  0x20202020302c302c302c302c302c302c302c302c302c302c302c302c302c302c302c302c,
  0x20202020302c302c302c302c302c302c302c302c302c302c302c302c302c302c302c302c,
  0x20202020302c302c302c302c302c302c302c302c302c302c302c302c302c302c302c302c,
  0x20202020302c302c302c302c302c302c302c302c302c302c302c302c302c302c302c302c,
  0x20202020302c302c302c302c302c302c302c302c302c302c302c302c302c302c302c302c,
  0x20202020302c302c302c302c302c302c302c302c302c302c302c302c302c302c302c302c,
  0x20202020302c302c302c302c302c302c302c302c302c302c302c302c302c302c302c302c,
  0x20202020302c302c302c302c302c302c302c302c302c302c302c302c302c302c302c302c,
  0x20202020302c302c302c302c302c302c302c302c302c302c302c302c302c302c302c302c,
  0x20202020302c302c307836352c302c302c302c302c302c302c307836352c302c302c302c302c302c302c,
  0x20202020302c302c302c302c302c302c302c302c302c307836342c302c302c307836352c302c307836342c302c,
  0x20202020307836342c302c302c30783634]

/-- UnicodeData/BidiPropsData.py:888-895 the lines. -/
def bidiText11 : List Nat :=
 [0x5d,
  0x0,
  0x75626964695f70726f70735f747269655f696e6465785f6c656e677468203d2033353638,
  0x75626964695f70726f70735f747269655f696e6465785f325f6e756c6c5f6f6666736574203d203078316130,
  0x75626964695f70726f70735f747269655f646174615f6e756c6c5f6f6666736574203d203078653730,
  0x75626964695f70726f70735f747269655f686967685f7374617274203d203078313130303030,
  0x75626964695f70726f70735f747269655f686967685f76616c75655f696e646578203d20307833306634,
  0x0]

/-- UnicodeData/BidiPropsData.py:1-895 all lines. -/
def bidiText : List Nat :=
 bidiText0 ++ (bidiText1 ++ (bidiText2 ++ (bidiText3 ++ (bidiText4 ++ (bidiText5 ++ (bidiText6 ++ (bidiText7 ++ (bidiText8 ++ (bidiText9 ++ (bidiText10 ++ (bidiText11)))))))))))

/-- UnicodeData/CasePropsData.py:1-9 the lines. -/
def caseText0 : List Nat :=
 [0x2222222f,
  0x4361736550726f7073446174612e70792c206261736564206f6e2075636173655f70726f70735f646174612e682066726f6d20494355,
  0x0,
  0x47656e657261746564206279204d6f64756c654275696c6465722e7079206f6e204175677573742032362c20323032312061742031313a32373a313320414d20485354,
  0x222222,
  0x0,
  0x75636173655f70726f70735f696e6465786573203d205b307831302c3078373063322c3078363039382c30783638332c30783137322c302c302c302c302c302c302c302c302c302c302c335d,
  0x0,
  0x75636173655f70726f70735f74726965496e646578203d205b]

/-- UnicodeData/CasePropsData.py:10-265 the lines. -/
def caseText1 : List Nat :=
 [0x2020202030783333362c30783333652c30783334362c30783334652c30783335632c30783336342c30783336632c30783337342c30783337632c30783338342c30783338622c30783339332c30783339622c30783361332c30783361622c30783362332c,
  0x2020202030783362392c30783363312c30783363392c30783364312c30783364392c30783365312c30783365392c30783366312c30783366392c30783430312c30783430392c30783431312c30783431392c30783432312c30783432392c30783433312c,
  0x2020202030783433392c30783434312c30783434392c30783435312c30783435392c30783436312c30783436392c30783437312c30783436642c30783437352c30783437612c30783438322c30783438392c30783439312c30783439392c30783461312c,
  0x2020202030783461392c30783462312c30783462392c30783463312c30783335352c30783335642c30783463362c30783463652c30783464332c30783464622c30783465332c30783465622c30783465612c30783466322c30783466372c30783466662c,
  0x2020202030783530372c30783530652c30783531322c30783335352c30783335352c30783335352c30783531392c30783532312c30783532392c30783532622c30783533332c30783533622c30783533662c30783534302c30783534382c30783535302c,
  0x2020202030783535382c30783534302c30783536302c30783536352c30783535382c30783534302c30783536642c30783537352c30783533662c30783537642c30783538352c30783538642c30783539352c30783335352c30783539642c30783335352c,
  0x2020202030783561352c30783465632c30783561642c30783538642c30783533662c30783537642c30783562342c30783538642c30783562632c30783562652c30783534382c30783538642c30783533662c30783335352c30783563362c30783335352c,
  0x2020202030783335352c30783563632c30783564332c30783335352c30783335352c30783564372c30783564662c30783335352c30783565332c30783565612c30783335352c30783566312c30783566392c30783630302c30783630382c30783335352c,
  0x2020202030783335352c30783630642c30783631352c30783631642c30783632352c30783632642c30783633342c30783633632c30783335352c30783335352c30783335352c30783335352c30783335352c30783335352c30783335352c30783335352c,
  0x2020202030783335352c30783335352c30783335352c30783335352c30783335352c30783335352c30783335352c30783335352c30783335352c30783335352c30783634342c30783335352c30783335352c30783635342c30783635342c30783634632c,
  0x2020202030783335352c30783335352c30783335352c30783335352c30783335352c30783335352c30783335352c30783335352c30783335352c30783335352c30783335352c30783335352c30783335352c30783335352c30783335352c30783335352c,
  0x2020202030783335352c30783335352c30783335352c30783335352c30783335352c30783335352c30783335352c30783335352c30783635632c30783635632c30783534632c30783534632c30783335352c30783636322c30783636612c30783335352c,
  0x2020202030783637322c30783335352c30783637612c30783335352c30783638312c30783638372c30783335352c30783335352c30783335352c30783638662c30783335352c30783335352c30783335352c30783335352c30783335352c30783335352c,
  0x2020202030783639362c30783335352c30783639642c30783661352c30783335352c30783661642c30783662352c30783335352c30783537632c30783662382c30783663302c30783663362c30783562632c30783663652c30783335352c30783664352c,
  0x2020202030783335352c30783664612c30783335352c30783665302c30783665382c30783665632c30783666342c30783666632c30783730342c30783730392c30783730632c30783731342c30783732342c30783731632c30783733342c30783732632c,
  0x2020202030783337632c30783733632c30783337632c30783734342c30783734372c30783337632c30783734662c30783337632c30783735372c30783735662c30783736372c30783736662c30783737372c30783737662c30783738372c30783738662c,
  0x2020202030783739372c30783739652c30783335352c30783761362c30783761652c30783335352c30783762362c30783762652c30783763362c30783763652c30783764362c30783764652c30783765362c30783335352c30783335352c30783335352c,
  0x2020202030783335352c30783335352c30783335352c30783335352c30783335352c30783335352c30783335352c30783335352c30783335352c30783335352c30783335352c30783335352c30783335352c30783335352c30783335352c30783335352c,
  0x2020202030783335352c30783335352c30783335352c30783335352c30783335352c30783765392c30783765662c30783766352c30783335352c30783335352c30783335352c30783335352c30783335352c30783335352c30783335352c30783335352c,
  0x2020202030783335352c30783335352c30783335352c30783335352c30783335352c30783335352c30783335352c30783335352c30783335352c30783335352c30783335352c30783335352c30783335352c30783335352c30783335352c30783335352c,
  0x2020202030783335352c30783335352c30783335352c30783335352c30783335352c30783335352c30783335352c30783335352c30783335352c30783335352c30783335352c30783335352c30783335352c30783335352c30783335352c30783335352c,
  0x2020202030783335352c30783335352c30783335352c30783335352c30783335352c30783335352c30783335352c30783335352c30783335352c30783335352c30783335352c30783335352c30783335352c30783335352c30783335352c30783335352c,
  0x2020202030783766642c30783830322c30783830362c30783830652c30783337632c30783337632c30783337632c30783831362c30783831652c30783832352c30783335352c30783832612c30783335352c30783335352c30783335352c30783833322c,
  0x2020202030783335352c30783637372c30783335352c30783335352c30783335352c30783335352c30783335352c30783335352c30783335352c30783335352c30783335352c30783335352c30783335352c30783335352c30783335352c30783335352c,
  0x2020202030783533652c30783833612c30783335352c30783335352c30783834312c30783335352c30783335352c30783834392c30783335352c30783335352c30783335352c30783335352c30783335352c30783335352c30783335352c30783335352c,
  0x2020202030783335352c30783335352c30783335352c30783335352c30783335352c30783335352c30783335352c30783335352c30783335352c30783335352c30783335352c30783335352c30783335352c30783335352c30783335352c30783335352c,
  0x2020202030783335352c30783335352c30783335352c30783335352c30783335352c30783335352c30783335352c30783335352c30783335352c30783335352c30783335352c30783335352c30783335352c30783335352c30783335352c30783335352c,
  0x2020202030783335352c30783335352c30783335352c30783335352c30783335352c30783335352c30783335352c30783335352c30783335352c30783335352c30783335352c30783335352c30783335352c30783335352c30783335352c30783335352c,
  0x2020202030783335352c30783335352c30783335352c30783335352c30783335352c30783335352c30783335352c30783335352c30783335352c30783335352c30783335352c30783335352c30783335352c30783335352c30783335352c30783335352c,
  0x2020202030783335352c30783335352c30783335352c30783335352c30783335352c30783335352c30783335352c30783335352c30783335352c30783335352c30783335352c30783335352c30783335352c30783335352c30783335352c30783335352c,
  0x2020202030783335352c30783335352c30783335352c30783335352c30783335352c30783335352c30783335352c30783335352c30783335352c30783335352c30783335352c30783335352c30783335352c30783335352c30783335352c30783335352c,
  0x2020202030783335352c30783335352c30783335352c30783335352c30783335352c30783335352c30783335352c30783335352c30783335352c30783335352c30783335352c30783335352c30783335352c30783335352c30783335352c30783335352c,
  0x2020202030783335352c30783335352c30783335352c30783335352c30783335352c30783335352c30783335352c30783335352c30783335352c30783335352c30783335352c30783335352c30783335352c30783335352c30783335352c30783335352c,
  0x2020202030783335352c30783335352c30783335352c30783335352c30783335352c30783335352c30783335352c30783335352c30783335352c30783335352c30783335352c30783335352c30783335352c30783335352c30783335352c30783335352c,
  0x2020202030783335352c30783335352c30783335352c30783335352c30783335352c30783335352c30783335352c30783335352c30783335352c30783335352c30783335352c30783335352c30783335352c30783335352c30783335352c30783335352c,
  0x2020202030783335352c30783335352c30783335352c30783335352c30783335352c30783335352c30783335352c30783335352c30783335352c30783335352c30783335352c30783335352c30783335352c30783335352c30783335352c30783335352c,
  0x2020202030783335352c30783335352c30783335352c30783335352c30783335352c30783335352c30783335352c30783335352c30783335352c30783335352c30783335352c30783335352c30783335352c30783335352c30783335352c30783335352c,
  0x2020202030783335352c30783335352c30783335352c30783335352c30783335352c30783335352c30783335352c30783335352c30783335352c30783335352c30783335352c30783335352c30783335352c30783335352c30783335352c30783335352c,
  0x2020202030783335352c30783335352c30783335352c30783335352c30783335352c30783335352c30783335352c30783335352c30783335352c30783335352c30783335352c30783335352c30783335352c30783335352c30783335352c30783335352c,
  0x2020202030783335352c30783335352c30783335352c30783335352c30783335352c30783335352c30783335352c30783335352c30783335352c30783335352c30783335352c30783335352c30783335352c30783335352c30783335352c30783335352c,
  0x2020202030783335352c30783335352c30783335352c30783335352c30783335352c30783335352c30783335352c30783335352c30783335352c30783335352c30783335352c30783335352c30783335352c30783335352c30783335352c30783335352c,
  0x2020202030783335352c30783335352c30783335352c30783335352c30783335352c30783335352c30783335352c30783335352c30783335352c30783335352c30783335352c30783335352c30783335352c30783335352c30783335352c30783335352c,
  0x2020202030783335352c30783335352c30783335352c30783335352c30783335352c30783335352c30783335352c30783335352c30783335352c30783335352c30783335352c30783335352c30783335352c30783335352c30783335352c30783335352c,
  0x2020202030783335352c30783335352c30783335352c30783335352c30783335352c30783335352c30783335352c30783335352c30783335352c30783335352c30783335352c30783335352c30783335352c30783335352c30783335352c30783335352c,
  0x2020202030783335352c30783335352c30783335352c30783335352c30783335352c30783335352c30783335352c30783335352c30783335352c30783335352c30783335352c30783335352c30783335352c30783335352c30783335352c30783335352c,
  0x2020202030783335352c30783335352c30783335352c30783335352c30783335352c30783335352c30783335352c30783335352c30783335352c30783335352c30783335352c30783335352c30783335352c30783335352c30783335352c30783335352c,
  0x2020202030783335352c30783335352c30783335352c30783335352c30783335352c30783335352c30783335352c30783335352c30783335352c30783335352c30783335352c30783335352c30783335352c30783335352c30783335352c30783335352c,
  0x2020202030783335352c30783335352c30783335352c30783335352c30783335352c30783335352c30783335352c30783335352c30783335352c30783335352c30783335352c30783335352c30783335352c30783335352c30783335352c30783335352c,
  0x2020202030783335352c30783335352c30783335352c30783335352c30783335352c30783335352c30783335352c30783335352c30783335352c30783335352c30783335352c30783335352c30783335352c30783335352c30783335352c30783335352c,
  0x2020202030783335352c30783335352c30783335352c30783335352c30783335352c30783335352c30783335352c30783335352c30783335352c30783335352c30783335352c30783335352c30783335352c30783335352c30783335352c30783335352c,
  0x2020202030783335352c30783335352c30783335352c30783335352c30783335352c30783335352c30783335352c30783335352c30783335352c30783335352c30783335352c30783335352c30783335352c30783335352c30783335352c30783335352c,
  0x2020202030783335352c30783335352c30783335352c30783335352c30783335352c30783335352c30783335352c30783335352c30783335352c30783335352c30783335352c30783335352c30783335352c30783335352c30783335352c30783335352c,
  0x2020202030783335352c30783335352c30783335352c30783335352c30783335352c30783335352c30783335352c30783335352c30783335352c30783335352c30783335352c30783335352c30783335352c30783335352c30783335352c30783335352c,
  0x2020202030783335352c30783335352c30783335352c30783335352c30783335352c30783335352c30783335352c30783335352c30783335352c30783335352c30783335352c30783335352c30783335352c30783335352c30783335352c30783335352c,
  0x2020202030783335352c30783335352c30783335352c30783335352c30783335352c30783335352c30783335352c30783335352c30783335352c30783335352c30783335352c30783335352c30783335352c30783335352c30783335352c30783335352c,
  0x2020202030783335352c30783335352c30783335352c30783335352c30783335352c30783335352c30783335352c30783335352c30783335352c30783335352c30783335352c30783335352c30783335352c30783335352c30783335352c30783335352c,
  0x2020202030783335352c30783335352c30783335352c30783335352c30783335352c30783335352c30783335352c30783335352c30783335352c30783335352c30783335352c30783335352c30783335352c30783335352c30783335352c30783335352c,
  0x2020202030783335352c30783335352c30783335352c30783335352c30783335352c30783335352c30783335352c30783335352c30783335352c30783335352c30783335352c30783335352c30783335352c30783335352c30783335352c30783335352c,
  0x2020202030783335352c30783335352c30783335352c30783335352c30783335352c30783335352c30783335352c30783335352c30783335352c30783335352c30783335352c30783335352c30783335352c30783335352c30783335352c30783335352c,
  0x2020202030783335352c30783335352c30783335352c30783335352c30783335352c30783335352c30783335352c30783335352c30783335352c30783335352c30783335352c30783335352c30783335352c30783335352c30783335352c30783335352c,
  0x2020202030783335352c30783335352c30783335352c30783335352c30783335352c30783335352c30783335352c30783335352c30783335352c30783335352c30783335352c30783335352c30783335352c30783335352c30783335352c30783335352c,
  0x2020202030783335352c30783335352c30783335352c30783335352c30783335352c30783335352c30783335352c30783335352c30783335352c30783335352c30783335352c30783335352c30783335352c30783335352c30783335352c30783335352c,
  0x2020202030783335352c30783335352c30783335352c30783335352c30783335352c30783335352c30783335352c30783335352c30783335352c30783335352c30783335352c30783335352c30783335352c30783335352c30783335352c30783335352c,
  0x2020202030783335352c30783335352c30783335352c30783335352c30783335352c30783335352c30783335352c30783335352c30783335352c30783335352c30783335352c30783335352c30783335352c30783335352c30783335352c30783335352c,
  0x2020202030783335352c30783335352c30783335352c30783335352c30783335352c30783335352c30783335352c30783335352c30783335352c30783335352c30783335352c30783335352c30783335352c30783335352c30783335352c30783335352c,
  0x2020202030783335352c30783335352c30783335352c30783335352c30783335352c30783335352c30783335352c30783335352c30783335352c30783335352c30783335352c30783335352c30783335352c30783335352c30783335352c30783335352c,
  0x2020202030783335352c30783335352c30783335352c30783335352c30783335352c30783335352c30783335352c30783335352c30783335352c30783335352c30783335352c30783335352c30783335352c30783335352c30783335352c30783335352c,
  0x2020202030783335352c30783335352c30783335352c30783335352c30783335352c30783335352c30783335352c30783335352c30783335352c30783335352c30783335352c30783335352c30783335352c30783335352c30783335352c30783335352c,
  0x2020202030783335352c30783335352c30783335352c30783335352c30783335352c30783335352c30783335352c30783335352c30783335352c30783335352c30783335352c30783335352c30783335352c30783335352c30783335352c30783335352c,
  0x2020202030783335352c30783335352c30783335352c30783335352c30783335352c30783335352c30783335352c30783335352c30783335352c30783335352c30783335352c30783335352c30783335352c30783335352c30783335352c30783335352c,
  0x2020202030783335352c30783335352c30783335352c30783335352c30783335352c30783335352c30783335352c30783335352c30783335352c30783335352c30783335352c30783335352c30783335352c30783335352c30783335352c30783335352c,
  0x2020202030783335352c30783335352c30783335352c30783335352c30783335352c30783335352c30783335352c30783335352c30783335352c30783335352c30783335352c30783335352c30783335352c30783335352c30783335352c30783335352c,
  0x2020202030783335352c30783335352c30783335352c30783335352c30783335352c30783335352c30783335352c30783335352c30783335352c30783335352c30783335352c30783335352c30783335352c30783335352c30783335352c30783335352c,
  0x2020202030783335352c30783335352c30783335352c30783335352c30783335352c30783335352c30783335352c30783335352c30783335352c30783335352c30783335352c30783335352c30783335352c30783335352c30783335352c30783335352c,
  0x2020202030783335352c30783335352c30783335352c30783335352c30783335352c30783335352c30783335352c30783335352c30783335352c30783335352c30783335352c30783335352c30783335352c30783335352c30783335352c30783335352c,
  0x2020202030783335352c30783335352c30783335352c30783335352c30783335352c30783335352c30783335352c30783335352c30783335352c30783335352c30783335352c30783335352c30783335352c30783335352c30783335352c30783335352c,
  0x2020202030783335352c30783335352c30783335352c30783335352c30783335352c30783335352c30783335352c30783335352c30783335352c30783335352c30783335352c30783335352c30783335352c30783335352c30783335352c30783335352c,
  0x2020202030783335352c30783335352c30783335352c30783335352c30783335352c30783335352c30783335352c30783335352c30783335352c30783335352c30783335352c30783335352c30783335352c30783335352c30783335352c30783335352c,
  0x2020202030783335352c30783335352c30783335352c30783335352c30783335352c30783335352c30783335352c30783335352c30783335352c30783335352c30783335352c30783335352c30783335352c30783335352c30783335352c30783335352c,
  0x2020202030783335352c30783335352c30783335352c30783335352c30783335352c30783335352c30783335352c30783335352c30783335352c30783335352c30783335352c30783335352c30783335352c30783335352c30783335352c30783335352c,
  0x2020202030783835312c30783335352c30783335352c30783335352c30783335352c30783335352c30783335352c30783335352c30783335352c30783335352c30783335352c30783335352c30783335352c30783335352c30783335352c30783335352c,
  0x2020202030783335352c30783335352c30783335352c30783335352c30783335352c30783335352c30783335352c30783335352c30783335352c30783335352c30783335352c30783335352c30783335352c30783335352c30783335352c30783335352c,
  0x2020202030783335352c30783335352c30783335352c30783335352c30783335352c30783335352c30783335352c30783665302c30783335352c30783335352c30783335352c30783335352c30783335352c30783335352c30783335352c30783335352c,
  0x2020202030783835372c30783335352c30783835662c30783836342c30783836632c30783335352c30783335352c30783837342c30783837632c30783838342c30783337632c30783838392c30783839312c30783839372c30783839662c30783861322c,
  0x2020202030783861612c30783862312c30783335352c30783335352c30783335352c30783335352c30783862382c30783863302c30783335352c30783863382c30783863662c30783335352c30783532392c30783864342c30783864632c30783638312c,
  0x2020202030783335352c30783865322c30783865612c30783865652c30783335352c30783866362c30783866652c30783930362c30783335352c30783930632c30783931302c30783931382c30783932382c30783932302c30783335352c30783933302c,
  0x2020202030783335352c30783335352c30783335352c30783335352c30783335352c30783335352c30783335352c30783335352c30783335352c30783335352c30783335352c30783335352c30783335352c30783335352c30783335352c30783335352c,
  0x2020202030783335352c30783335352c30783335352c30783335352c30783335352c30783335352c30783335352c30783335352c30783335352c30783335352c30783335352c30783335352c30783335352c30783335352c30783335352c30783335352c,
  0x2020202030783335352c30783335352c30783335352c30783335352c30783335352c30783335352c30783335352c30783335352c30783335352c30783335352c30783335352c30783335352c30783335352c30783335352c30783335352c30783335352c,
  0x2020202030783335352c30783335352c30783335352c30783335352c30783335352c30783335352c30783335352c30783335352c30783335352c30783335352c30783335352c30783335352c30783335352c30783335352c30783335352c30783335352c,
  0x2020202030783335352c30783335352c30783335352c30783335352c30783335352c30783335352c30783335352c30783335352c30783335352c30783335352c30783335352c30783335352c30783335352c30783335352c30783335352c30783335352c,
  0x2020202030783335352c30783335352c30783335352c30783335352c30783335352c30783335352c30783335352c30783335352c30783335352c30783335352c30783335352c30783335352c30783335352c30783335352c30783335352c30783335352c,
  0x2020202030783335352c30783335352c30783335352c30783335352c30783335352c30783335352c30783335352c30783335352c30783335352c30783335352c30783335352c30783335352c30783335352c30783335352c30783335352c30783335352c,
  0x2020202030783335352c30783335352c30783335352c30783335352c30783335352c30783335352c30783335352c30783335352c30783335352c30783335352c30783335352c30783335352c30783335352c30783335352c30783335352c30783335352c,
  0x2020202030783335352c30783335352c30783335352c30783335352c30783335352c30783335352c30783335352c30783335352c30783335352c30783335352c30783335352c30783335352c30783335352c30783335352c30783335352c30783335352c,
  0x2020202030783335352c30783335352c30783335352c30783335352c30783335352c30783335352c30783335352c30783335352c30783335352c30783335352c30783335352c30783335352c30783335352c30783335352c30783335352c30783335352c,
  0x2020202030783335352c30783335352c30783335352c30783335352c30783335352c30783335352c30783335352c30783335352c30783335352c30783335352c30783335352c30783335352c30783335352c30783335352c30783335352c30783335352c,
  0x2020202030783335352c30783335352c30783335352c30783335352c30783335352c30783335352c30783335352c30783335352c30783335352c30783335352c30783335352c30783335352c30783335352c30783335352c30783335352c30783335352c,
  0x2020202030783335352c30783335352c30783335352c30783335352c30783335352c30783335352c30783335352c30783335352c30783335352c30783335352c30783335352c30783335352c30783335352c30783335352c30783335352c30783335352c,
  0x2020202030783335352c30783335352c30783335352c30783335352c30783335352c30783335352c30783335352c30783335352c30783335352c30783335352c30783335352c30783335352c30783335352c30783335352c30783335352c30783335352c,
  0x2020202030783335352c30783335352c30783335352c30783335352c30783335352c30783335352c30783335352c30783335352c30783335352c30783335352c30783335352c30783335352c30783335352c30783335352c30783335352c30783335352c,
  0x2020202030783335352c30783335352c30783335352c30783335352c30783335352c30783335352c30783335352c30783335352c30783335352c30783335352c30783335352c30783335352c30783335352c30783335352c30783335352c30783335352c,
  0x2020202030783335352c30783335352c30783335352c30783335352c30783335352c30783335352c30783335352c30783335352c30783335352c30783335352c30783335352c30783335352c30783335352c30783335352c30783335352c30783335352c,
  0x2020202030783335352c30783335352c30783335352c30783335352c30783335352c30783335352c30783335352c30783335352c30783335352c30783335352c30783335352c30783335352c30783335352c30783335352c30783335352c30783335352c,
  0x2020202030783335352c30783335352c30783335352c30783335352c30783335352c30783335352c30783335352c30783335352c30783335352c30783335352c30783335352c30783335352c30783335352c30783335352c30783335352c30783335352c,
  0x2020202030783335352c30783335352c30783335352c30783335352c30783335352c30783335352c30783335352c30783335352c30783335352c30783335352c30783335352c30783335352c30783335352c30783335352c30783335352c30783335352c,
  0x2020202030783335352c30783335352c30783335352c30783335352c30783335352c30783335352c30783335352c30783335352c30783335352c30783335352c30783335352c30783335352c30783335352c30783335352c30783335352c30783335352c,
  0x2020202030783335352c30783335352c30783335352c30783335352c30783335352c30783335352c30783335352c30783335352c30783335352c30783335352c30783335352c30783335352c30783335352c30783335352c30783335352c30783335352c,
  0x2020202030783335352c30783335352c30783335352c30783335352c30783335352c30783335352c30783335352c30783335352c30783335352c30783335352c30783335352c30783335352c30783335352c30783335352c30783335352c30783335352c,
  0x2020202030783335352c30783335352c30783335352c30783335352c30783335352c30783335352c30783335352c30783335352c30783335352c30783335352c30783335352c30783335352c30783335352c30783335352c30783335352c30783335352c,
  0x2020202030783335352c30783335352c30783335352c30783335352c30783335352c30783335352c30783335352c30783335352c30783335352c30783335352c30783335352c30783335352c30783335352c30783335352c30783335352c30783335352c,
  0x2020202030783335352c30783335352c30783335352c30783335352c30783335352c30783335352c30783335352c30783335352c30783335352c30783335352c30783335352c30783335352c30783335352c30783335352c30783335352c30783335352c,
  0x2020202030783335352c30783335352c30783335352c30783335352c30783335352c30783335352c30783335352c30783335352c30783335352c30783335352c30783335352c30783335352c30783335352c30783335352c30783335352c30783335352c,
  0x2020202030783335352c30783335352c30783335352c30783335352c30783335352c30783335352c30783335352c30783335352c30783335352c30783335352c30783335352c30783335352c30783335352c30783335352c30783335352c30783335352c,
  0x2020202030783335352c30783335352c30783335352c30783335352c30783335352c30783335352c30783335352c30783335352c30783335352c30783335352c30783335352c30783335352c30783335352c30783335352c30783335352c30783335352c,
  0x2020202030783335352c30783335352c30783335352c30783335352c30783335352c30783335352c30783335352c30783335352c30783335352c30783335352c30783335352c30783335352c30783335352c30783335352c30783335352c30783335352c,
  0x2020202030783335352c30783335352c30783335352c30783335352c30783335352c30783335352c30783335352c30783335352c30783335352c30783335352c30783335352c30783335352c30783335352c30783335352c30783335352c30783335352c,
  0x2020202030783335352c30783335352c30783335352c30783335352c30783335352c30783335352c30783335352c30783335352c30783335352c30783335352c30783335352c30783335352c30783335352c30783335352c30783335352c30783335352c,
  0x2020202030783335352c30783335352c30783335352c30783335352c30783335352c30783335352c30783335352c30783335352c30783335352c30783335352c30783335352c30783335352c30783335352c30783335352c30783335352c30783335352c,
  0x2020202030783335352c30783335352c30783335352c30783335352c30783335352c30783335352c30783335352c30783335352c30783335352c30783335352c30783335352c30783335352c30783335352c30783335352c30783335352c30783335352c,
  0x2020202030783335352c30783335352c30783335352c30783335352c30783335352c30783335352c30783335352c30783335352c30783335352c30783335352c30783335352c30783335352c30783335352c30783335352c30783335352c30783335352c,
  0x2020202030783335352c30783335352c30783335352c30783335352c30783335352c30783335352c30783335352c30783335352c30783335352c30783335352c30783335352c30783335352c30783335352c30783335352c30783335352c30783335352c,
  0x2020202030783335352c30783335352c30783335352c30783335352c30783335352c30783335352c30783335352c30783335352c30783335352c30783335352c30783335352c30783335352c30783335352c30783335352c30783335352c30783335352c,
  0x2020202030783335352c30783335352c30783335352c30783335352c30783335352c30783335352c30783335352c30783335352c30783335352c30783335352c30783335352c30783335352c30783335352c30783335352c30783335352c30783335352c,
  0x2020202030783335352c30783335352c30783335352c30783335352c30783335352c30783335352c30783335352c30783335352c30783335352c30783335352c30783335352c30783335352c30783335352c30783335352c30783335352c30783335352c,
  0x2020202030783335352c30783335352c30783335352c30783335352c30783335352c30783335352c30783335352c30783335352c30783933382c30783335352c30783335352c30783335352c30783335352c30783934302c30783562632c30783335352c,
  0x2020202030783335352c30783335352c30783335352c30783335352c30783335352c30783335352c30783335352c30783335352c30783335352c30783335352c30783335352c30783335352c30783335352c30783335352c30783335352c30783335352c,
  0x2020202030783934352c30783934642c30783935312c30783335352c30783335352c30783335352c30783335352c30783333382c30783333652c30783935392c30783936312c30783936382c30783465632c30783335352c30783335352c30783937302c,
  0x2020202030783335352c30783335352c30783335352c30783335352c30783335352c30783335352c30783335352c30783335352c30783335352c30783335352c30783335352c30783335352c30783335352c30783335352c30783335352c30783335352c,
  0x2020202030783335352c30783335352c30783335352c30783335352c30783335352c30783335352c30783335352c30783335352c30783335352c30783335352c30783335352c30783335352c30783335352c30783335352c30783335352c30783335352c,
  0x2020202030786435382c30786435382c30786437302c30786462302c30786466302c30786532632c30786536632c30786561632c30786565342c30786632342c30786636342c30786661342c30786665342c3078313032342c3078313036342c3078313061342c,
  0x202020203078313065342c3078313132342c3078313136342c3078313161342c3078313162342c3078313165382c3078313232342c3078313236342c3078313261342c3078313265342c30786435342c3078313331382c3078313334632c3078313338632c3078313361382c3078313364632c,
  0x2020202030783965312c30786131312c30786135312c30786139302c30783138382c30783138382c30786163382c30783138382c30783138382c30783138382c30783138382c30783138382c30783138382c30786166312c30783138382c30783138382c,
  0x2020202030783138382c30783138382c30783138382c30783138382c30783138382c30783138382c30783138382c30786233312c30783138382c30783138382c30786236362c30786261352c30786265352c30786331662c30786335362c30783138382c,
  0x2020202030783138382c30783138382c30783138382c30783138382c30783138382c30783138382c30783138382c30783138382c30783138382c30783138382c30783138382c30783138382c30783138382c30783138382c30783138382c30783138382c,
  0x2020202030783138382c30783138382c30783138382c30783138382c30783138382c30783138382c30783138382c30783138382c30783138382c30783138382c30783138382c30783138382c30783138382c30783138382c30783138382c30783138382c,
  0x2020202030783138382c30783138382c30783138382c30783138382c30783138382c30783138382c30783138382c30783138382c30783138382c30783138382c30783138382c30783138382c30783138382c30783138382c30783138382c30783138382c,
  0x2020202030783138382c30783138382c30783138382c30783138382c30783138382c30783138382c30783138382c30783138382c30783138382c30783138382c30783138382c30783138382c30783138382c30783138382c30783138382c30783138382c,
  0x2020202030783138382c30783138382c30783138382c30783138382c30783138382c30783138382c30783138382c30783138382c30783138382c30783138382c30783138382c30783138382c30783138382c30783138382c30783138382c30783138382c,
  0x2020202030783138382c30783138382c30783138382c30783138382c30783138382c30783138382c30783138382c30783138382c30783138382c30783138382c30783138382c30783138382c30783138382c30783138382c30783138382c30783138382c,
  0x2020202030783138382c30783138382c30783138382c30783138382c30783138382c30783138382c30783138382c30783138382c30783138382c30783138382c30783138382c30783138382c30783138382c30783138382c30783138382c30783138382c,
  0x2020202030783138382c30783138382c30783138382c30783138382c30783138382c30783138382c30783138382c30783138382c30783138382c30783138382c30783138382c30783138382c30783138382c30783138382c30783138382c30783138382c,
  0x2020202030783138382c30783138382c30783138382c30783138382c30783138382c30783138382c30783138382c30783138382c30783138382c30783138382c30783138382c30783138382c30783138382c30783138382c30783138382c30783138382c,
  0x2020202030783138382c30783138382c30783138382c30783138382c30783138382c30783138382c30783138382c30783138382c30783138382c30783138382c30783138382c30783138382c30783138382c30783138382c30783138382c30783138382c,
  0x2020202030783138382c30783138382c30783138382c30783138382c30783138382c30783138382c30783138382c30783138382c30783138382c30783138382c30783138382c30783138382c30783138382c30783138382c30783138382c30783138382c,
  0x2020202030783138382c30783138382c30783138382c30783138382c30783138382c30783138382c30783138382c30783138382c30783138382c30783138382c30783138382c30783138382c30783138382c30783138382c30783138382c30783138382c,
  0x2020202030783138382c30783138382c30783138382c30783138382c30783138382c30783138382c30783138382c30783138382c30783138382c30783138382c30783138382c30783138382c30783138382c30783138382c30783138382c30783138382c,
  0x2020202030783138382c30783138382c30783138382c30783138382c30783138382c30783138382c30783138382c30783138382c30783138382c30783138382c30783138382c30783138382c30783138382c30783138382c30783138382c30783138382c,
  0x2020202030783138382c30783138382c30783138382c30783138382c30783138382c30783138382c30783138382c30783138382c30783138382c30783138382c30783138382c30783138382c30783138382c30783138382c30783138382c30783138382c,
  0x2020202030783138382c30783138382c30783138382c30783138382c30783138382c30783138382c30783138382c30783138382c30783138382c30783138382c30783138382c30783138382c30783138382c30783138382c30783138382c30783138382c,
  0x2020202030783138382c30783138382c30783138382c30783138382c30783138382c30783138382c30783138382c30783138382c30783138382c30783138382c30783138382c30783138382c30783138382c30783138382c30783138382c30783138382c,
  0x2020202030783138382c30783138382c30783138382c30783138382c30783138382c30783138382c30783138382c30783138382c30783138382c30783138382c30783138382c30783138382c30783138382c30783138382c30783138382c30783138382c,
  0x2020202030783138382c30783138382c30783138382c30783138382c30783138382c30783138382c30783138382c30783138382c30783138382c30783138382c30783138382c30783138382c30783138382c30783138382c30783138382c30783138382c,
  0x2020202030783138382c30783138382c30783138382c30783138382c30783138382c30783138382c30783138382c30783138382c30783138382c30783138382c30783138382c30783138382c30783138382c30783138382c30783138382c30783138382c,
  0x2020202030783138382c30783138382c30783138382c30783138382c30783138382c30783138382c30783138382c30783138382c30783138382c30783138382c30783138382c30783138382c30783138382c30783138382c30783138382c30783138382c,
  0x2020202030783138382c30783138382c30783138382c30783138382c30783138382c30783138382c30783138382c30783138382c30783138382c30783138382c30783138382c30783138382c30783138382c30783138382c30783138382c30783138382c,
  0x2020202030783138382c30783138382c30783138382c30783138382c30783138382c30783138382c30783138382c30783138382c30783138382c30783138382c30783138382c30783138382c30783138382c30783138382c30783138382c30783138382c,
  0x2020202030783138382c30783138382c30783138382c30783138382c30783138382c30783138382c30783138382c30783138382c30783138382c30783138382c30783138382c30783138382c30783138382c30783138382c30783138382c30783138382c,
  0x2020202030786339362c30783335352c30783335352c30783335352c30783335352c30783335352c30783335352c30783335352c30783335352c30783335352c30783335352c30783335352c30783335352c30783335352c30783335352c30783335352c,
  0x2020202030783937372c30783335352c30783335352c30783335352c30783335352c30783335352c30783335352c30783335352c30783662352c30783335352c30783335352c30783335352c30783937662c30783335352c30783335352c30783335352c,
  0x2020202030783335352c30783938372c30783938642c30783939312c30783335352c30783335352c30783939352c30783939392c30783939662c30783335352c30783335352c30783335352c30783335352c30783335352c30783335352c30783335352c,
  0x2020202030783335352c30783335352c30783335352c30783335352c30783335352c30783335352c30783335352c30783335352c30783335352c30783335352c30783335352c30783335352c30783335352c30783335352c30783335352c30783335352c,
  0x2020202030783335352c30783961372c30783961622c30783335352c30783335352c30783335352c30783335352c30783335352c30783962332c30783335352c30783335352c30783335352c30783335352c30783335352c30783335352c30783335352c,
  0x2020202030783335352c30783335352c30783335352c30783335352c30783335352c30783962622c30783962662c30783963372c30783963622c30783335352c30783964322c30783335352c30783335352c30783335352c30783335352c30783335352c,
  0x2020202030783335352c30783335352c30783335352c30783335352c30783335352c30783335352c30783964382c30783335352c30783335352c30783335352c30783335352c30783964662c30783335352c30783335352c30783335352c30783335352c,
  0x2020202030783335352c30783533662c30783965342c30783965622c30783562642c30783562632c30783965662c30783533632c30783335352c30783966372c30783966652c30783335352c30786130342c30783562632c30786130392c30786131312c,
  0x2020202030783335352c30783335352c30786131362c30783335352c30783335352c30783335352c30783335352c30783333382c30786131652c30783562632c30783562652c30786132362c30786132642c30783335352c30783335352c30783335352c,
  0x2020202030783335352c30783335352c30783965342c30786133352c30783335352c30783335352c30786133642c30786134352c30783335352c30783335352c30783335352c30783335352c30783335352c30783335352c30786134392c30786135312c,
  0x2020202030783335352c30783335352c30786135392c30783462302c30783335352c30783335352c30786136312c30783335352c30783335352c30786136372c30786136662c30783335352c30783335352c30783335352c30783335352c30783335352c,
  0x2020202030783335352c30786137342c30783335352c30783335352c30783335352c30786137632c30786138342c30783335352c30783335352c30786138632c30786139342c30783335352c30783335352c30783335352c30786139372c30783662352c,
  0x2020202030786139662c30786161332c30786161622c30783335352c30786162322c30783335352c30783335352c30783335352c30783335352c30783335352c30783335352c30783335352c30783335352c30783335352c30783335352c30783335352c,
  0x2020202030783335352c30786162392c30783335352c30783335352c30783934302c30786163312c30783335352c30783335352c30783335352c30786163372c30786163662c30783335352c30786164332c30783335352c30783335352c30783335352c,
  0x2020202030783335352c30783335352c30783335352c30783335352c30783335352c30783335352c30783335352c30786164392c30783335352c30783335352c30783335352c30783335352c30783335352c30783335352c30783335352c30783335352c,
  0x2020202030783335352c30783335352c30783335352c30783335352c30783335352c30783335352c30783335352c30783335352c30783335352c30783335352c30783335352c30783335352c30783335352c30783335352c30783335352c30783335352c,
  0x2020202030783335352c30783335352c30783335352c30783335352c30783335352c30783335352c30783335352c30783335352c30783335352c30786164662c30783335352c30783335352c30783335352c30783335352c30783335352c30783335352c,
  0x2020202030783335352c30783335352c30783335352c30783335352c30783335352c30783335352c30783335352c30783335352c30783335352c30783335352c30783335352c30783335352c30783335352c30783335352c30783335352c30783335352c,
  0x2020202030783335352c30783335352c30783335352c30783335352c30783335352c30783335352c30783335352c30783335352c30786165362c30783335352c30786165632c30783537632c30783335352c30783335352c30783335352c30783335352c,
  0x2020202030783335352c30783335352c30783335352c30783335352c30783335352c30783335352c30783335352c30783335352c30783335352c30783335352c30783335352c30783335352c30783335352c30783335352c30783335352c30783335352c,
  0x2020202030783335352c30783335352c30783335352c30786137632c30786138342c30783335352c30783335352c30783335352c30783335352c30783335352c30783335352c30783637372c30783335352c30786166322c30783335352c30783335352c,
  0x2020202030786166612c30783335352c30783335352c30783335352c30783335352c30783335352c30783335352c30783335352c30783335352c30783335352c30783335352c30783335352c30783335352c30783335352c30783335352c30783335352c,
  0x2020202030783335352c30783335352c30783335352c30783335352c30783335352c30783335352c30783335352c30783335352c30783335352c30783335352c30783335352c30783335352c30783335352c30783335352c30783335352c30783335352c,
  0x2020202030783335352c30783335352c30783335352c30783335352c30783335352c30786166662c30783537632c30783335352c30783335352c30783335352c30783335352c30783335352c30783335352c30783335352c30783335352c30783335352c,
  0x2020202030783335352c30783335352c30783335352c30783335352c30783335352c30783335352c30783335352c30783335352c30783335352c30783335352c30783335352c30783335352c30783335352c30783335352c30783335352c30783335352c,
  0x2020202030783335352c30786230372c30786230662c30786231352c30783335352c30783335352c30783335352c30783335352c30786231642c30783335352c30783335352c30783335352c30783335352c30783335352c30783335352c30783335352c,
  0x2020202030783335352c30783335352c30783335352c30783335352c30783335352c30783335352c30786232352c30786232642c30786233322c30786233382c30786234302c30786234382c30786235302c30786232392c30786235382c30786236302c,
  0x2020202030786236382c30786236662c30786232612c30786232352c30786232642c30786232382c30786233382c30786232622c30786232362c30786237372c30786232392c30786237662c30786238372c30786238662c30786239362c30786238322c,
  0x2020202030786238612c30786239322c30786239392c30786238352c30786261312c30783335352c30783335352c30783335352c30783335352c30783335352c30783335352c30783335352c30783335352c30783335352c30783335352c30783335352c,
  0x2020202030783335352c30783335352c30783335352c30783335352c30783335352c30783837632c30786261392c30783837632c30786262302c30786262372c30786262662c30783335352c30783335352c30783335352c30783335352c30783335352c,
  0x2020202030783335352c30783335352c30783335352c30783335352c30783335352c30783335352c30783335352c30783335352c30783335352c30783335352c30783335352c30783335352c30783335352c30783335352c30783335352c30783335352c,
  0x2020202030783335352c30783335352c30783335352c30783335352c30783335352c30783335352c30783335352c30783335352c30783335352c30783335352c30783335352c30783335352c30783335352c30783335352c30783335352c30783335352c,
  0x2020202030783335352c30783335352c30783335352c30783335352c30783335352c30786263372c30786263662c30783335352c30783335352c30783335352c30783335352c30783335352c30783335352c30783335352c30786264332c30783335352c,
  0x2020202030783335352c30783335352c30783335352c30783335352c30783335352c30783335352c30783335352c30783335352c30783335352c30783335352c30783335352c30783335352c30783964302c30783335352c30783335352c30783335352c,
  0x2020202030783335352c30783335352c30783335352c30783335352c30783335352c30783335352c30783335352c30783335352c30783335352c30783335352c30783335352c30783335352c30783335352c30783335352c30783335352c30783335352c,
  0x2020202030783335352c30783335352c30783335352c30783335352c30783335352c30783335352c30783335352c30783335352c30783335352c30783335352c30783335352c30783335352c30783335352c30783335352c30783335352c30783335352c,
  0x2020202030783335352c30783335352c30783335352c30783335352c30783335352c30786264622c30783335352c30786265332c30786265622c30786266322c30783335352c30783335352c30783335352c30783335352c30783335352c30783335352c,
  0x2020202030783335352c30783335352c30783335352c30783335352c30783335352c30783335352c30783335352c30783335352c30783335352c30783335352c30783335352c30783335352c30783335352c30783335352c30783335352c30783335352c,
  0x2020202030783335352c30783335352c30783335352c30783335352c30783335352c30783335352c30783335352c30783335352c30783335352c30783335352c30783335352c30783335352c30783335352c30783335352c30783335352c30783335352c,
  0x2020202030783335352c30783335352c30783335352c30783335352c30783335352c30783335352c30783335352c30783335352c30783335352c30783335352c30783335352c30783335352c30783335352c30783335352c30783335352c30786232312c,
  0x2020202030786266612c30786266612c30786330302c30783335352c30783335352c30783335352c30783335352c30783335352c30783335352c30783335352c30783335352c30783335352c30783335352c30783335352c30783335352c30783335352c,
  0x2020202030783335352c30783335352c30783335352c30783335352c30783335352c30783966392c30783335352c30783335352c30783335352c30783335352c30783335352c30783335352c30783335352c30783335352c30783335352c30783335352c,
  0x2020202030783335352c30783335352c30783335352c30783335352c30783335352c30783335352c30783335352c30783335352c30783335352c30783335352c30783335352c30783335352c30783335352c30783335352c30783335352c30783335352c,
  0x2020202030783335352c30783335352c30783335352c30783335352c30783335352c30783335352c30783533662c30783837632c30783837632c30783837632c30783335352c30783335352c30783335352c30783335352c30783837632c30783837632c,
  0x2020202030783837632c30783837632c30783837632c30783837632c30783837632c30786330382c30783335352c30783335352c30783335352c30783335352c30783335352c30783335352c30783335352c30783335352c30783335352c30783335352c,
  0x2020202030783335352c30783335352c30783335352c30783335352c30783335352c30783335352c30783335352c30783335352c30783335352c30783335352c30783335352c30783335352c30783335352c30783335352c30783335352c30783335352c,
  0x2020202030783335352c30783335352c30783335352c30783335352c30783335352c30783335352c30783335352c30783335352c30783335352c30783335352c30783335352c30783335352c30783335352c30783335352c30783335352c30783335352c,
  0x2020202030783335352c30783335352c30783335352c30783335352c30783335352c30783335352c30783333352c30783333352c302c302c302c302c302c302c302c302c,
  0x20202020302c302c302c302c302c302c302c302c302c302c302c302c302c302c302c302c,
  0x20202020302c302c302c302c302c302c302c302c302c302c302c302c302c302c302c342c,
  0x20202020302c302c302c302c302c302c342c302c302c302c302c302c302c302c302c302c,
  0x20202020302c302c342c302c302c302c302c302c302c3078313031322c3078313031322c3078313031322c3078313031322c3078313031322c3078313031322c3078313031322c,
  0x202020203078313031322c3078612c307835612c307837612c3078313031322c3078313031322c3078313031322c3078313031322c3078313031322c3078313031322c3078313031322c307862612c3078313031322c3078313031322c3078313031322c3078313031322c,
  0x202020203078313031322c3078313031322c3078313031322c302c302c302c342c302c342c3078663031312c3078663031312c3078663031312c3078663031312c3078663031312c3078663031312c3078663031312c,
  0x202020203078663031312c307866392c3078663033312c30783134392c3078663031312c3078663031312c3078663031312c3078663031312c3078663031312c3078663031312c3078663031312c30783138392c3078663031312c3078663031312c3078663031312c3078663031312c,
  0x202020203078663031312c3078663031312c3078663031312c302c302c302c302c302c302c302c302c302c302c302c302c302c,
  0x20202020302c302c302c302c302c302c302c302c302c302c302c302c302c302c302c302c,
  0x20202020302c302c302c302c302c302c302c302c302c302c302c302c302c302c302c302c,
  0x20202020302c302c302c302c302c302c302c302c302c302c302c302c302c302c302c302c,
  0x20202020302c302c302c302c302c302c302c302c342c302c312c302c302c342c302c342c,
  0x20202020302c302c302c302c342c30783163392c302c342c342c302c312c302c302c302c302c302c,
  0x202020203078313031322c3078313031322c3078313031322c3078313031322c3078313031322c30783166612c3078313031322c3078313031322c3078313031322c3078313031322c3078313031322c3078313031322c307835612c307835612c3078313031322c3078313031322c,
  0x202020203078313031322c3078313031322c3078313031322c3078313031322c3078313031322c3078313031322c3078313031322c302c3078313031322c3078313031322c3078313031322c3078313031322c3078313031322c3078313031322c3078313031322c30783233392c,
  0x202020203078663031312c3078663031312c3078663031312c3078663031312c3078663031312c30783264392c3078663031312c3078663031312c3078663031312c3078663031312c3078663031312c3078663031312c3078663031312c3078663031312c3078663031312c3078663031312c,
  0x202020203078663031312c3078663031312c3078663031312c3078663031312c3078663031312c3078663031312c3078663031312c302c3078663031312c3078663031312c3078663031312c3078663031312c3078663031312c3078663031312c3078663031312c3078336339312c,
  0x20202020307839322c3078666639312c307839322c3078666639312c307839322c3078666639312c307839322c3078666639312c307839322c3078666639312c307839322c3078666639312c307839322c3078666639312c307839322c3078666639312c,
  0x20202020307839322c3078666639312c307839322c3078666639312c307839322c3078666639312c307839322c3078666639312c307839322c3078666639312c307839322c3078666639312c307839322c3078666639312c307839322c3078666639312c,
  0x20202020307839322c3078666639312c307839322c3078666639312c307839322c3078666639312c307839322c3078666639312c30783331612c3078666639312c307839322c3078666639312c307839322c3078666639312c30783331612c3078666662312c,
  0x2020202030783333612c30783338392c307839322c3078666639312c307839322c3078666639312c307839322c3078666639312c312c307839322c3078666639312c307839322c3078666639312c307839322c3078666639312c307839322c,
  0x202020203078666639312c307839322c3078666639312c307839322c3078666639312c30783364392c307839322c3078666639312c307839322c3078666639312c307839322c3078666639312c307839322c3078666639312c307839322c3078666639312c,
  0x20202020307839322c3078666639312c307839322c3078666639312c307839322c3078666639312c307839322c3078666639312c307839322c3078666639312c307839322c3078666639312c307839322c3078666639312c307839322c3078666639312c,
  0x20202020307839322c3078666639312c307839322c3078666639312c307839322c3078666639312c307839322c3078666639312c307839322c3078666639312c307839322c3078666639312c307839322c3078666639312c307839322c3078666639312c,
  0x20202020307839322c3078666639312c307839322c3078666639312c3078633339322c307839322c3078666639312c307839322c3078666639312c307839322c3078666639312c30783435392c3078363139312c3078363931322c307839322c3078666639312c,
  0x20202020307839322c3078666639312c3078363731322c307839322c3078666639312c3078363639322c3078363639322c307839322c3078666639312c312c3078323739322c3078363531322c3078363539322c307839322c3078666639312c3078363639322c,
  0x202020203078363739322c3078333039312c3078363939322c3078363839322c307839322c3078666639312c3078353139312c312c3078363939322c3078366139322c3078343131312c3078366231322c307839322c3078666639312c307839322c3078666639312c,
  0x20202020307839322c3078666639312c3078366431322c307839322c3078666639312c3078366431322c312c312c307839322c3078666639312c3078366431322c307839322c3078666639312c3078366339322c3078366339322c307839322c,
  0x202020203078666639312c307839322c3078666639312c3078366439322c307839322c3078666639312c312c302c307839322c3078666639312c312c3078316331312c302c302c302c302c,
  0x2020202030783438612c30783462622c30783466392c30783532612c30783535622c30783539392c30783563612c30783566622c30783633392c307839322c3078666639312c307839322c3078666639312c307839322c3078666639312c307839322c,
  0x202020203078666639312c307839322c3078666639312c307839322c3078666639312c307839322c3078666639312c307839322c3078666639312c3078643839312c307839322c3078666639312c307839322c3078666639312c307839322c3078666639312c,
  0x20202020307839322c3078666639312c307839322c3078666639312c307839322c3078666639312c307839322c3078666639312c307839322c3078666639312c307839322c3078666639312c30783636392c30783665612c30783731622c30783735392c,
  0x20202020307839322c3078666639312c3078636639322c3078653431322c307839322c3078666639312c307839322c3078666639312c307839322c3078666639312c307839322c3078666639312c307839322c3078666639312c307839322c3078666639312c,
  0x20202020307839322c3078666639312c307839322c3078666639312c307839322c3078666639312c307839322c3078666639312c307839322c3078666639312c307839322c3078666639312c307839322c3078666639312c307839322c3078666639312c,
  0x20202020307839322c3078666639312c307839322c3078666639312c3078626631322c312c307839322c3078666639312c307839322c3078666639312c307839322c3078666639312c307839322c3078666639312c307839322c3078666639312c,
  0x20202020307839322c3078666639312c307839322c3078666639312c307839322c3078666639312c307839322c3078666639312c312c312c312c312c312c312c30783738612c307839322c,
  0x202020203078666639312c3078616539322c30783761612c30783763392c30783763392c307839322c3078666639312c3078396539322c3078323239322c3078323339322c307839322c3078666639312c307839322c3078666662312c307839322c3078666639312c,
  0x20202020307839322c3078666639312c307839322c3078666639312c30783765392c30783830392c30783832392c3078393731312c3078393931312c312c3078393939312c3078393939312c312c3078396231312c312c3078396139312c,
  0x2020202030783834392c312c312c312c3078393939312c30783836392c312c3078393839312c312c30783838392c30783861392c312c3078393762312c3078393639312c30783861392c30783863392c,
  0x2020202030783865392c312c312c3078393639312c312c30783930392c3078393539312c312c312c3078393531312c312c312c312c312c312c312c,
  0x20202020312c30783932392c312c312c3078393331312c312c30783934392c3078393331312c312c312c312c30783936392c3078393331312c3078646439312c3078393339312c3078393339312c,
  0x202020203078646339312c312c312c312c312c312c3078393239312c312c302c312c312c312c312c312c312c312c,
  0x20202020312c30783938392c30783961392c312c312c312c312c312c312c312c312c312c312c312c312c312c,
  0x20202020312c312c312c312c352c352c307832352c352c352c352c352c352c352c342c342c342c,
  0x20202020307831342c342c307831342c342c352c352c342c342c342c342c342c342c342c342c342c342c,
  0x20202020342c342c342c342c342c342c342c342c342c342c342c342c342c342c342c342c,
  0x20202020342c342c342c342c352c352c352c352c352c342c342c342c342c342c342c342c,
  0x20202020342c342c342c342c342c342c342c342c342c342c342c342c342c342c342c342c,
  0x20202020342c342c342c342c307835342c307835342c307834342c307834342c307834342c307834342c307834342c30783963632c307835342c307834342c307835342c307834342c,
  0x20202020307835342c307834342c307834342c307834342c307834342c307834342c307834342c307835342c307834342c307836342c307836342c307836342c307836342c307836342c307836342c307836342c]

/-- UnicodeData/CasePropsData.py:266-521 the lines. -/
def caseText2 : List Nat :=
 [0x20202020307836342c307836342c307836342c307836342c307836342c307836342c307836342c307836342c307836342c307836342c307836342c307836342c307836342c307836342c307836342c307836342c,
  0x20202020307836342c307836342c307836342c307836342c307836342c307837342c307836342c307836342c307836342c307836342c307836342c307836342c307836342c307836342c307836342c307836342c,
  0x20202020307836342c307834342c307834342c307834342c307834342c307834342c307835342c307834342c307834342c30783964642c307834342c307836342c307836342c307836342c307834342c307834342c,
  0x20202020307834342c307836342c307836342c342c307834342c307834342c307834342c307836342c307836342c307836342c307836342c307834342c307836342c307836342c307836342c307834342c,
  0x20202020307836342c307836342c307836342c307836342c307836342c307836342c307836342c307834342c307834342c307834342c307834342c307834342c307834342c307834342c307834342c307834342c,
  0x20202020307834342c307834342c307834342c307834342c307839322c3078666639312c307839322c3078666639312c342c342c307839322c3078666639312c302c302c352c3078343131312c,
  0x202020203078343131312c3078343131312c302c3078336131322c302c302c302c302c342c342c3078313331322c342c3078313239322c3078313239322c3078313239322c302c,
  0x202020203078323031322c302c3078316639322c3078316639322c30786132392c3078313031322c30786166612c3078313031322c3078313031322c30786233612c3078313031322c3078313031322c30786237612c30786263612c30786331612c3078313031322c,
  0x2020202030786335612c3078313031322c3078313031322c3078313031322c30786339612c30786364612c302c30786431612c3078313031322c3078313031322c30786435612c3078313031322c3078313031322c30786439612c3078313031322c3078313031322c,
  0x202020203078656431312c3078656439312c3078656439312c3078656439312c30786464392c3078663031312c30786561392c3078663031312c3078663031312c30786565392c3078663031312c3078663031312c30786632392c30786637392c30786663392c3078663031312c,
  0x202020203078313030392c3078663031312c3078663031312c3078663031312c3078313034392c3078313038392c3078313063392c3078313066392c3078663031312c3078663031312c3078313133392c3078663031312c3078663031312c3078313137392c3078663031312c3078663031312c,
  0x202020203078653031312c3078653039312c3078653039312c30783431322c3078313162392c3078313165392c322c322c322c3078313233392c3078313236392c3078666331312c307839322c3078666639312c307839322c3078666639312c,
  0x20202020307839322c3078666639312c307839322c3078666639312c307839322c3078666639312c307839322c3078666639312c307839322c3078666639312c307839322c3078666639312c307839322c3078666639312c307839322c3078666639312c,
  0x20202020307839322c3078666639312c307839322c3078666639312c3078313239392c3078313263392c30783339312c3078633633312c3078313266612c3078313334392c302c307839322c3078666639312c3078666339322c307839322c3078666639312c,
  0x20202020312c3078626631322c3078626631322c3078626631322c3078323831322c3078323831322c3078323831322c3078323831322c3078323831322c3078323831322c3078323831322c3078323831322c3078323831322c3078323831322c3078323831322c3078323831322c,
  0x202020203078323831322c3078323831322c3078323831322c3078323831322c3078313031322c3078313031322c3078313337612c3078313031322c3078313362612c3078313031322c3078313031322c3078313031322c3078313031322c3078313031322c3078313031322c3078313031322c,
  0x202020203078313031322c3078313031322c3078313366612c3078313031322c3078313031322c3078313433612c3078313437612c3078313031322c3078313031322c3078313031322c3078313031322c3078313031322c3078313031322c3078313031322c3078313463612c3078313031322c,
  0x202020203078313031322c3078313031322c3078313031322c3078313031322c3078663031312c3078663031312c3078313530392c3078663031312c3078313534392c3078663031312c3078663031312c3078663031312c3078663031312c3078663031312c3078663031312c3078663031312c,
  0x202020203078663031312c3078663031312c3078313538392c3078663031312c3078663031312c3078313563392c3078313630392c3078663031312c3078663031312c3078663031312c3078663031312c3078663031312c3078663031312c3078663031312c3078313635392c3078663031312c,
  0x202020203078663031312c3078663031312c3078663031312c3078663031312c3078643831312c3078643831312c3078643831312c3078643831312c3078643831312c3078643831312c3078643833312c3078643831312c3078643833312c3078643831312c3078643831312c3078643831312c,
  0x202020203078643831312c3078643831312c3078643831312c3078643831312c307839322c3078666639312c3078313639612c3078313664392c307839322c3078666639312c307839322c3078666639312c307839322c3078666639312c307839322c3078666639312c,
  0x20202020307839322c3078666639312c307839322c3078666639312c307839322c3078666639312c307839322c3078666639312c307839322c3078666639312c307839322c3078666639312c307839322c3078666639312c307839322c3078666639312c,
  0x20202020307839322c3078666639312c307839322c3078666639312c307839322c3078666639312c302c307834342c307834342c307834342c307834342c307834342c342c342c307839322c3078666639312c,
  0x20202020307839322c3078666639312c307839322c3078666639312c307839322c3078666639312c307839322c3078666639312c307839322c3078666639312c307839322c3078666639312c307839322c3078666639312c307839322c3078666639312c,
  0x20202020307839322c3078666639312c307839322c3078666639312c307839322c3078666639312c307839322c3078666639312c307839322c3078666639312c307839322c3078666639312c307839322c3078666639312c307839322c3078666639312c,
  0x20202020307839322c3078666639312c307839322c3078666639312c307839322c3078666639312c307839322c3078666639312c307839322c3078666639312c307839322c3078666639312c307839322c3078666639312c307839322c3078666639312c,
  0x20202020307839322c3078666639312c307839322c3078666639312c30783739322c307839322c3078666639312c307839322c3078666639312c307839322c3078666639312c307839322c3078666639312c307839322c3078666639312c307839322c,
  0x202020203078666639312c307839322c3078666639312c3078663839312c307839322c3078666639312c307839322c3078666639312c307839322c3078666639312c307839322c3078666639312c307839322c3078666639312c307839322c3078666639312c,
  0x20202020307839322c3078666639312c307839322c3078666639312c307839322c3078666639312c307839322c3078666639312c307839322c3078666639312c307839322c3078666639312c307839322c3078666639312c307839322c3078666639312c,
  0x20202020307839322c3078666639312c307839322c3078666639312c307839322c3078666639312c307839322c3078666639312c307839322c3078666639312c307839322c3078666639312c307839322c3078666639312c307839322c3078666639312c,
  0x20202020307839322c3078666639312c307839322c3078666639312c302c3078313831322c3078313831322c3078313831322c3078313831322c3078313831322c3078313831322c3078313831322c3078313831322c3078313831322c3078313831322c3078313831322c,
  0x202020203078313831322c3078313831322c3078313831322c3078313831322c3078313831322c3078313831322c3078313831322c3078313831322c3078313831322c3078313831322c3078313831322c3078313831322c3078313831322c3078313831322c3078313831322c302c,
  0x20202020302c342c302c302c302c302c302c342c312c3078653831312c3078653831312c3078653831312c3078653831312c3078653831312c3078653831312c3078653831312c,
  0x202020203078653831312c3078653831312c3078653831312c3078653831312c3078653831312c3078653831312c3078653831312c3078653831312c3078653831312c3078653831312c3078653831312c3078653831312c3078653831312c3078653831312c3078653831312c3078653831312c,
  0x202020203078653831312c3078653831312c3078653831312c3078653831312c3078653831312c3078653831312c3078653831312c3078653831312c3078653831312c3078653831312c3078653831312c3078313731392c312c302c302c302c,
  0x20202020302c302c302c302c302c307836342c307834342c307834342c307834342c307834342c307836342c307834342c307834342c307834342c307836342c307836342c,
  0x20202020307834342c307834342c307834342c307834342c307834342c307834342c307836342c307836342c307836342c307836342c307836342c307836342c307834342c307834342c307836342c307834342c,
  0x20202020307834342c307836342c307836342c307834342c307836342c307836342c307836342c307836342c307836342c307836342c307836342c307836342c307836342c307836342c307836342c307836342c,
  0x20202020307836342c307836342c302c307836342c302c307836342c307836342c302c307834342c307836342c302c307836342c302c302c302c302c,
  0x20202020302c302c302c302c302c302c302c302c302c302c302c302c302c302c302c302c,
  0x20202020302c302c302c302c302c302c302c302c302c302c302c302c302c302c302c302c,
  0x20202020302c302c302c302c302c302c302c302c342c302c302c302c302c302c302c302c,
  0x20202020302c302c302c302c342c342c342c342c342c342c302c302c302c302c302c302c,
  0x20202020302c302c302c302c307834342c307834342c307834342c307834342c307834342c307834342c307834342c307834342c307836342c307836342c307836342c302c,
  0x20202020342c302c302c302c302c302c302c302c302c302c302c302c302c302c302c302c,
  0x20202020302c302c302c302c302c302c302c302c302c302c302c302c302c302c302c302c,
  0x20202020302c302c302c302c342c302c302c302c302c302c302c302c302c302c302c307836342c,
  0x20202020307836342c307836342c307836342c307836342c307836342c307836342c307836342c307834342c307834342c307836342c307836342c307834342c307834342c307834342c307834342c307834342c,
  0x20202020307836342c307834342c307834342c307836342c302c302c302c302c302c302c302c302c302c302c302c302c,
  0x20202020302c302c302c302c307836342c302c302c302c302c302c302c302c302c302c302c302c,
  0x20202020302c302c302c302c302c302c302c302c302c302c302c302c302c302c307834342c307834342c,
  0x20202020307834342c307834342c307834342c307834342c307834342c342c302c307834342c307834342c307834342c307834342c307836342c307834342c342c342c307834342c,
  0x20202020307834342c302c307836342c307834342c307834342c307836342c302c302c302c302c302c302c302c302c302c302c,
  0x20202020302c302c302c302c302c302c302c302c302c302c302c342c302c307836342c302c302c,
  0x20202020302c302c302c302c302c302c302c302c302c302c302c302c302c302c302c302c,
  0x20202020302c302c302c302c302c302c302c302c302c302c302c302c307834342c307836342c307834342c307834342c,
  0x20202020307836342c307834342c307834342c307836342c307836342c307836342c307834342c307836342c307836342c307834342c307836342c307834342c307834342c307834342c307836342c307834342c,
  0x20202020307836342c307834342c307836342c307834342c307836342c307834342c307834342c302c302c302c302c302c302c302c302c302c,
  0x20202020302c302c302c302c302c302c302c302c302c302c302c302c302c302c302c302c,
  0x20202020302c302c302c302c302c302c302c302c302c302c302c302c302c302c302c302c,
  0x20202020302c302c302c302c302c302c302c302c302c302c302c302c302c302c342c342c,
  0x20202020342c342c342c342c342c342c342c342c342c302c302c302c302c302c302c302c,
  0x20202020302c302c302c302c302c302c302c302c302c302c302c302c302c302c302c302c,
  0x20202020302c302c302c302c302c302c302c302c302c302c302c302c302c302c302c302c,
  0x20202020302c302c302c302c302c302c302c307834342c307834342c307834342c307834342c307834342c307834342c307834342c307836342c307834342c,
  0x20202020342c342c302c302c302c302c342c302c302c307836342c302c302c302c302c302c302c,
  0x20202020302c302c302c302c302c302c302c302c302c302c302c302c302c302c302c302c,
  0x20202020302c302c307834342c307834342c307834342c307834342c342c307834342c307834342c307834342c307834342c307834342c342c307834342c307834342c307834342c,
  0x20202020342c307834342c307834342c307834342c307834342c307834342c302c302c302c302c302c302c302c302c302c302c,
  0x20202020302c302c302c302c302c302c302c302c302c302c302c302c302c302c302c302c,
  0x20202020302c307836342c307836342c307836342c302c302c302c302c302c302c302c302c302c302c302c302c,
  0x20202020302c302c302c302c302c302c302c307836342c307834342c307834342c307834342c307834342c307834342c307834342c307834342c307834342c,
  0x20202020307834342c307834342c307834342c307834342c307834342c307834342c342c307836342c307834342c307834342c307836342c307834342c307834342c307836342c307834342c307834342c,
  0x20202020307834342c307836342c307836342c307836342c307836342c307836342c307836342c307834342c307834342c307834342c307836342c307834342c307834342c307836342c307836342c307834342c,
  0x20202020307834342c307834342c307834342c307834342c342c342c342c302c302c302c302c302c302c302c302c302c,
  0x20202020302c302c302c302c302c302c302c302c302c302c302c302c302c302c302c302c,
  0x20202020302c302c302c302c302c302c342c302c307836342c302c302c302c302c342c342c342c,
  0x20202020342c342c342c342c342c302c302c302c302c307836342c302c302c302c307834342c307836342c307834342c,
  0x20202020307834342c342c342c342c302c302c302c302c302c302c302c302c302c302c342c342c,
  0x20202020302c302c302c302c302c302c302c302c302c302c302c302c302c342c302c302c,
  0x20202020302c302c302c302c302c302c302c302c302c302c302c302c302c302c302c302c,
  0x20202020302c302c302c302c302c302c302c302c302c302c302c302c307836342c302c302c302c,
  0x20202020302c342c342c342c342c302c302c302c302c302c302c302c302c307836342c302c302c,
  0x20202020302c302c302c302c302c302c302c302c302c302c302c302c302c302c302c302c,
  0x20202020302c302c342c342c302c302c302c302c302c302c302c302c302c302c302c302c,
  0x20202020302c302c302c302c302c302c302c302c302c302c302c302c302c302c307834342c302c,
  0x20202020302c342c342c302c302c302c302c302c302c302c302c302c302c302c302c302c,
  0x20202020302c302c302c302c302c302c302c302c302c302c302c302c302c302c302c302c,
  0x20202020302c342c342c302c302c302c302c342c342c302c302c342c342c307836342c302c302c,
  0x20202020302c342c302c302c302c302c302c302c302c302c302c302c302c302c302c302c,
  0x20202020302c302c302c302c342c342c302c302c302c342c302c302c302c302c302c302c,
  0x20202020302c302c302c302c302c342c342c342c342c342c302c342c342c302c302c302c,
  0x20202020302c307836342c302c302c302c302c302c302c302c302c302c302c302c302c302c302c,
  0x20202020302c302c302c302c302c302c342c342c302c302c302c302c302c302c302c302c,
  0x20202020302c302c302c302c302c302c302c302c302c302c302c302c302c302c342c342c,
  0x20202020342c342c342c342c302c302c302c302c302c302c302c302c302c302c302c302c,
  0x20202020302c302c302c302c302c302c302c302c302c302c302c302c302c302c302c302c,
  0x20202020307836342c302c302c342c302c342c342c342c342c302c302c302c302c302c302c302c,
  0x20202020302c307836342c302c302c302c302c302c302c302c342c342c302c302c302c302c302c,
  0x20202020302c302c302c302c302c302c342c342c302c302c302c302c302c302c302c302c,
  0x20202020302c302c302c302c302c302c302c302c302c302c302c302c302c302c302c302c,
  0x20202020302c302c302c302c302c302c342c302c302c302c302c302c302c302c302c302c,
  0x20202020302c302c302c302c302c302c302c302c302c302c302c302c302c302c302c302c,
  0x20202020302c302c302c302c342c302c302c302c302c302c302c302c302c302c302c302c,
  0x20202020302c307836342c302c302c302c302c302c302c302c302c302c302c302c302c302c302c,
  0x20202020302c302c302c302c342c302c302c302c342c302c302c302c302c302c302c302c,
  0x20202020302c302c302c302c302c302c302c302c302c302c302c302c302c302c302c302c,
  0x20202020302c302c302c302c342c302c302c302c302c302c342c342c342c302c342c342c,
  0x20202020342c307836342c302c302c302c302c302c302c302c307836342c307836342c302c302c302c302c302c,
  0x20202020302c302c302c302c302c302c342c302c302c302c302c302c342c307836342c302c302c,
  0x20202020302c302c302c302c302c302c302c302c302c302c302c302c302c302c302c302c,
  0x20202020342c342c302c302c302c302c302c302c302c302c302c302c302c302c302c302c,
  0x20202020302c302c302c302c302c302c302c302c302c302c302c302c302c302c302c302c,
  0x20202020302c302c302c307836342c307836342c302c302c302c302c302c302c302c302c302c302c302c,
  0x20202020302c302c307836342c302c302c302c302c302c302c302c342c342c342c302c342c302c,
  0x20202020302c302c302c302c302c302c302c302c302c302c302c302c302c302c302c302c,
  0x20202020302c342c302c302c342c342c342c342c307836342c307836342c307836342c302c302c302c302c302c,
  0x20202020302c302c342c342c307836342c307836342c307836342c307836342c342c342c342c302c302c302c302c302c,
  0x20202020302c302c302c302c302c302c302c302c302c302c302c302c302c342c302c302c,
  0x20202020342c342c342c342c307836342c307836342c307836342c342c342c302c302c302c302c302c302c302c,
  0x20202020302c302c342c302c307836342c307836342c307836342c307836342c342c342c302c302c302c302c302c302c,
  0x20202020302c302c302c302c302c302c302c302c302c302c302c302c302c302c302c302c,
  0x20202020302c302c302c302c307836342c307836342c302c302c302c302c302c302c302c302c302c302c,
  0x20202020302c302c302c302c302c302c302c302c302c302c302c302c302c307836342c302c307836342c,
  0x20202020302c307836342c302c302c302c302c302c302c302c302c302c302c302c302c302c302c,
  0x20202020302c302c302c302c302c307836342c307836342c342c307836342c342c342c342c342c342c307836342c307836342c,
  0x20202020307836342c307836342c342c302c307836342c342c307834342c307834342c307836342c302c307834342c307834342c302c302c302c302c,
  0x20202020302c342c342c342c342c342c342c342c342c342c342c342c302c342c342c342c,
  0x20202020342c342c342c342c342c342c342c342c342c342c342c342c342c342c342c342c,
  0x20202020342c342c342c342c342c342c342c342c342c342c342c342c342c302c302c302c,
  0x20202020302c302c302c302c302c302c307836342c302c302c302c302c302c302c302c302c302c,
  0x20202020302c302c302c302c302c302c302c302c302c302c302c302c302c302c302c302c,
  0x20202020302c342c342c342c342c302c342c342c342c342c342c307836342c302c307836342c307836342c302c,
  0x20202020302c342c342c302c302c302c302c302c302c302c302c302c302c302c302c302c,
  0x20202020302c302c302c302c302c302c302c302c302c302c302c302c342c342c302c302c,
  0x20202020302c302c342c342c342c302c302c302c302c302c302c302c302c302c302c302c,
  0x20202020302c302c302c302c302c342c342c342c342c302c302c302c302c302c302c302c,
  0x20202020302c302c302c302c302c302c342c302c302c342c342c302c302c302c302c302c,
  0x20202020302c307836342c302c302c302c302c302c302c302c302c302c302c302c302c302c302c,
  0x20202020302c342c302c302c3078313735612c3078313735612c3078313735612c3078313735612c3078313735612c3078313735612c3078313735612c3078313735612c3078313735612c3078313735612c3078313735612c3078313735612c,
  0x202020203078313735612c3078313735612c3078313735612c3078313735612c3078313735612c3078313735612c3078313735612c3078313735612c3078313735612c3078313735612c3078313735612c3078313735612c3078313735612c3078313735612c3078313735612c3078313735612c,
  0x202020203078313735612c3078313735612c3078313735612c3078313735612c3078313735612c3078313735612c302c3078313735612c302c302c302c302c302c3078313735612c302c302c,
  0x202020203078313737392c3078313761392c3078313764392c3078313830392c3078313833392c3078313836392c3078313839392c3078313863392c3078313866392c3078313932392c3078313935392c3078313938392c3078313962392c3078313965392c3078316131392c3078316134392c,
  0x202020203078316137392c3078316161392c3078316164392c3078316230392c3078316233392c3078316236392c3078316239392c3078316263392c3078316266392c3078316332392c3078316335392c3078316338392c3078316362392c3078316365392c3078316431392c3078316434392c,
  0x202020203078316437392c3078316461392c3078316464392c3078316530392c3078316533392c3078316536392c3078316539392c3078316563392c3078316566392c3078316632392c3078316635392c302c342c3078316638392c3078316662392c3078316665392c,
  0x20202020302c302c302c302c302c302c302c302c302c302c302c302c302c302c302c302c,
  0x20202020302c302c302c302c302c302c302c302c302c302c302c302c302c307834342c307834342c307834342c,
  0x202020203078323031612c3078323031612c3078323031612c3078323031612c3078323031612c3078323031612c3078323031612c3078323031612c3078323031612c3078323031612c3078323031612c3078323031612c3078323031612c3078323031612c3078323031612c3078323031612c,
  0x202020203078323033612c3078323033612c3078323033612c3078323033612c3078323033612c3078323033612c302c302c3078323035392c3078323038392c3078323062392c3078323065392c3078323131392c3078323134392c302c302c,
  0x202020203078323031612c3078323031612c3078323031612c3078323031612c3078323031612c3078323031612c3078323031612c3078323031612c3078323031612c3078323031612c3078323031612c3078323031612c3078323031612c3078323031612c3078323031612c3078323031612c,
  0x202020203078323031612c3078323031612c3078323031612c3078323031612c3078323031612c3078323031612c3078323031612c3078323031612c3078323031612c3078323031612c3078323031612c3078323031612c3078323031612c3078323031612c3078323031612c3078323031612c,
  0x20202020302c302c302c302c302c302c302c302c302c302c302c302c302c302c302c302c,
  0x20202020302c302c342c342c307836342c302c302c302c302c302c302c302c302c302c302c302c,
  0x20202020302c302c302c302c302c302c302c302c302c302c302c302c342c342c302c342c,
  0x20202020342c342c342c342c342c342c302c302c302c302c302c302c302c302c342c302c,
  0x20202020302c342c342c342c342c342c342c342c342c342c307836342c342c302c302c302c342c,
  0x20202020302c302c302c302c302c307834342c302c302c302c302c302c302c302c302c302c302c,
  0x20202020302c302c302c342c342c342c342c302c302c302c302c302c302c302c302c302c,
  0x20202020302c302c302c302c302c302c302c302c302c302c302c342c302c302c302c302c,
  0x20202020302c302c302c302c302c302c302c302c302c302c302c302c302c302c302c302c,
  0x20202020302c302c302c302c302c302c302c302c302c342c342c302c302c302c302c302c,
  0x20202020302c302c302c302c302c302c302c302c302c302c302c302c302c302c302c302c,
  0x20202020302c302c302c302c302c307836342c302c302c302c302c302c302c302c302c302c302c,
  0x20202020302c302c302c302c302c302c302c302c302c302c302c302c342c342c342c302c,
  0x20202020302c302c302c342c342c302c302c302c302c302c302c302c302c302c342c302c,
  0x20202020302c302c302c302c302c307836342c307834342c307836342c302c302c302c302c302c302c302c302c,
  0x20202020302c302c302c302c302c302c302c302c302c302c302c302c302c302c302c307834342c,
  0x20202020307836342c302c302c342c302c302c302c302c302c302c302c302c302c302c302c302c,
  0x20202020302c302c302c302c302c302c302c302c302c302c342c302c342c342c342c342c,
  0x20202020342c342c342c302c307836342c302c342c302c302c342c342c342c342c342c342c342c,
  0x20202020342c302c302c302c302c302c302c342c342c307834342c307834342c307834342c307834342c307834342c307834342c307834342c,
  0x20202020307834342c302c302c307836342c302c302c302c302c302c302c302c342c302c302c302c302c,
  0x20202020302c302c302c302c307834342c307834342c307834342c307834342c307834342c307836342c307836342c307836342c307836342c307836342c307836342c307834342c,
  0x20202020307834342c307836342c342c307836342c307836342c302c302c302c302c302c302c302c302c302c302c302c,
  0x20202020302c302c302c302c302c302c302c302c302c302c302c302c302c302c302c302c,
  0x20202020302c302c302c302c307836342c302c342c342c342c342c342c302c342c302c302c302c,
  0x20202020302c302c342c302c307836302c302c302c302c302c302c302c302c302c302c302c302c,
  0x20202020302c302c302c302c302c302c302c302c302c302c302c302c302c302c302c302c,
  0x20202020302c302c302c307834342c307836342c307834342c307834342c307834342c307834342c307834342c307834342c307834342c302c302c302c302c,
  0x20202020302c302c302c302c302c302c302c302c302c302c342c342c342c342c302c302c,
  0x20202020342c342c307836302c307836342c342c342c302c302c302c302c302c302c302c302c302c302c,
  0x20202020302c302c302c302c302c302c302c302c302c302c307836342c302c342c342c302c302c,
  0x20202020302c342c302c342c342c342c307836302c307836302c302c302c302c302c302c302c302c302c,
  0x20202020302c302c302c302c342c342c342c342c342c342c342c342c302c302c342c307836342c,
  0x20202020302c302c302c302c302c302c302c302c302c302c302c302c302c302c302c302c,
  0x20202020302c302c302c302c302c302c302c302c342c342c342c342c342c342c302c302c,
  0x202020203078323137392c3078323161392c3078323164392c3078323230392c3078323233392c3078323238392c3078323264392c3078323330392c3078323333392c302c302c302c302c302c302c302c,
  0x202020203078323336612c3078323336612c3078323336612c3078323336612c3078323336612c3078323336612c3078323336612c3078323336612c3078323336612c3078323336612c3078323336612c3078323336612c3078323336612c3078323336612c3078323336612c3078323336612c,
  0x202020203078323336612c3078323336612c3078323336612c3078323336612c3078323336612c3078323336612c3078323336612c3078323336612c3078323336612c3078323336612c3078323336612c302c302c3078323336612c3078323336612c3078323336612c,
  0x20202020302c302c302c302c302c302c302c302c302c302c302c302c302c302c302c302c,
  0x20202020307834342c307834342c307834342c302c307836342c307836342c307836342c307836342c307836342c307836342c307834342c307834342c307836342c307836342c307836342c307836342c,
  0x20202020307834342c302c307836342c307836342c307836342c307836342c307836342c307836342c307836342c302c302c302c302c307836342c302c302c,
  0x20202020302c302c302c302c307834342c302c302c302c307834342c307834342c302c302c302c302c302c302c,
  0x20202020312c312c312c312c312c312c312c312c312c312c312c312c312c312c312c312c,
  0x20202020312c312c312c312c312c312c312c312c312c312c312c312c312c312c312c312c,
  0x20202020352c352c352c352c352c352c352c352c352c352c352c352c352c352c352c352c,
  0x20202020352c352c352c352c352c352c352c352c352c352c352c352c352c352c352c352c,
  0x20202020352c352c307832352c352c352c352c352c352c352c352c352c312c312c312c312c312c,
  0x20202020312c312c312c312c312c312c312c312c352c3078323338392c312c312c312c3078323361392c312c312c,
  0x20202020352c352c352c352c307832352c352c352c352c307832352c352c352c352c352c352c352c352c,
  0x20202020352c352c352c352c352c352c352c352c352c352c352c352c352c352c352c352c,
  0x20202020312c312c312c312c312c312c312c312c312c312c312c312c312c312c3078323363392c312c,
  0x20202020312c312c312c312c312c312c307832312c312c312c312c312c352c352c352c352c352c,
  0x20202020307834342c307834342c307834342c307834342c307834342c307834342c307834342c307834342c307834342c307834342c307834342c307834342c307834342c307834342c307834342c307834342c,
  0x20202020307834342c307834342c307834342c307834342c307834342c307834342c307836342c307836342c307836342c307836342c302c307834342c307836342c307836342c307834342c307836342c,
  0x20202020307834342c307834342c307836342c307834342c307834342c307834342c307834342c307834342c307834342c307834342c307836342c307834342c307834342c307836342c307836342c307836342c,
  0x20202020307836342c307834342c307834342c307834342c307834342c307834342c307834342c307834342c307834342c307834342c307834342c307834342c307834342c307834342c307834342c307834342c,
  0x20202020307839322c3078666639312c307839322c3078666639312c307839322c3078666639312c307839322c3078666639312c307839322c3078666639312c307839322c3078666639312c307839322c3078666662312c307839322c3078666639312c,
  0x20202020307839322c3078666639312c307839322c3078666639312c307839322c3078666639312c307839322c3078666639312c307839322c3078666639312c307839322c3078666639312c307839322c3078666639312c307839322c3078666639312c,
  0x202020203078323365612c3078323432392c307839322c3078666639312c307839322c3078666639312c307839322c3078666639312c307839322c3078666639312c307839322c3078666639312c307839322c3078666639312c307839322c3078666639312c,
  0x20202020307839322c3078666639312c307839322c3078666639312c307839322c3078666639312c307839322c3078666639312c307839322c3078666639312c307839322c3078666639312c307839322c3078666639312c307839322c3078666639312c,
  0x20202020307839322c3078666639312c3078323436392c3078323465392c3078323536392c3078323565392c3078323636392c3078323665392c312c312c3078323731612c312c307839322c3078666639312c307839322c3078666639312c,
  0x20202020307839322c3078666639312c307839322c3078666639312c307839322c3078666639312c307839322c3078666662312c307839322c3078666639312c307839322c3078666639312c307839322c3078666639312c307839322c3078666639312c,
  0x20202020307839322c3078666639312c307839322c3078666639312c307839322c3078666639312c307839322c3078666639312c307839322c3078666639312c307839322c3078666639312c30783431312c30783431312c30783431312c30783431312c,
  0x2020202030783431312c30783431312c30783431312c30783431312c3078666331322c3078666331322c3078666331322c3078666331322c3078666331322c3078666331322c3078666331322c3078666331322c30783431312c30783431312c30783431312c30783431312c,
  0x2020202030783431312c30783431312c302c302c3078666331322c3078666331322c3078666331322c3078666331322c3078666331322c3078666331322c302c302c30783431312c30783431312c30783431312c30783431312c,
  0x2020202030783431312c30783431312c30783431312c30783431312c3078666331322c3078666331322c3078666331322c3078666331322c3078666331322c3078666331322c3078666331322c3078666331322c30783431312c30783431312c30783431312c30783431312c,
  0x2020202030783431312c30783431312c30783431312c30783431312c3078666331322c3078666331322c3078666331322c3078666331322c3078666331322c3078666331322c3078666331322c3078666331322c30783431312c30783431312c30783431312c30783431312c,
  0x2020202030783431312c30783431312c302c302c3078666331322c3078666331322c3078666331322c3078666331322c3078666331322c3078666331322c302c302c3078323736392c30783431312c3078323765392c30783431312c,
  0x202020203078323839392c30783431312c3078323934392c30783431312c302c3078666331322c302c3078666331322c302c3078666331322c302c3078666331322c30783431312c30783431312c30783431312c30783431312c,
  0x2020202030783431312c30783431312c30783431312c30783431312c3078666331322c3078666331322c3078666331322c3078666331322c3078666331322c3078666331322c3078666331322c3078666331322c3078323531312c3078323531312c3078326231312c3078326231312c,
  0x202020203078326231312c3078326231312c3078333231312c3078333231312c3078343031312c3078343031312c3078333831312c3078333831312c3078336631312c3078336631312c302c302c3078323966392c3078326136392c3078326164392c3078326234392c,
  0x202020203078326262392c3078326332392c3078326339392c3078326430392c3078326437622c3078326465622c3078326535622c3078326563622c3078326633622c3078326661622c3078333031622c3078333038622c3078333066392c3078333136392c3078333164392c3078333234392c,
  0x202020203078333262392c3078333332392c3078333339392c3078333430392c3078333437622c3078333465622c3078333535622c3078333563622c3078333633622c3078333661622c3078333731622c3078333738622c3078333766392c3078333836392c3078333864392c3078333934392c,
  0x202020203078333962392c3078336132392c3078336139392c3078336230392c3078336237622c3078336265622c3078336335622c3078336363622c3078336433622c3078336461622c3078336531622c3078336538622c30783431312c30783431312c3078336566392c3078336637392c,
  0x202020203078336665392c302c3078343036392c3078343065392c3078666331322c3078666331322c3078646231322c3078646231322c3078343139622c342c3078343230392c342c342c342c3078343235392c3078343264392c,
  0x202020203078343334392c302c3078343363392c3078343434392c3078643531322c3078643531322c3078643531322c3078643531322c3078343466622c342c342c342c30783431312c30783431312c3078343536392c3078343631392c,
  0x20202020302c302c3078343665392c3078343736392c3078666331322c3078666331322c3078636531322c3078636531322c302c342c342c342c30783431312c30783431312c3078343831392c3078343863392c,
  0x202020203078343939392c30783339312c3078346131392c3078346139392c3078666331322c3078666331322c3078633831322c3078633831322c3078666339322c342c342c342c302c302c3078346234392c3078346263392c,
  0x202020203078346333392c302c3078346362392c3078346433392c3078633031322c3078633031322c3078633131322c3078633131322c3078346465622c342c342c302c302c302c302c302c,
  0x20202020302c302c302c302c302c302c302c342c342c342c342c342c302c302c302c302c,
  0x20202020302c302c302c302c342c342c302c302c302c302c302c302c342c302c302c342c,
  0x20202020302c302c342c342c342c342c342c302c302c302c302c302c302c302c302c302c,
  0x20202020302c302c302c302c302c302c302c302c342c342c342c342c342c302c342c342c,
  0x20202020342c342c342c342c342c342c342c342c302c307832352c302c302c302c302c302c302c,
  0x20202020302c302c302c302c302c302c302c352c302c302c302c302c302c302c302c302c,
  0x20202020302c302c302c302c302c302c302c302c352c352c352c352c352c352c352c352c,
  0x20202020352c352c352c352c352c302c302c302c302c302c302c302c302c302c302c302c,
  0x20202020302c302c302c302c302c302c302c302c307834342c307834342c307836342c307836342c307834342c307834342c307834342c307834342c,
  0x20202020307836342c307836342c307836342c307834342c307834342c342c342c342c342c307834342c342c342c342c307836342c307836342c307834342c,
  0x20202020307836342c307834342c307836342c307836342c307836342c307836342c307836342c307836342c307834342c302c302c302c302c302c302c302c,
  0x20202020302c302c302c302c302c302c302c302c302c302c322c302c302c302c302c322c,
  0x20202020302c302c312c322c322c322c312c312c322c322c322c312c302c322c302c302c,
  0x20202020302c322c322c322c322c322c302c302c302c302c302c302c322c302c3078346535612c302c,
  0x20202020322c302c3078346539612c3078346564612c322c322c302c312c322c322c30786531322c322c312c302c302c302c,
  0x20202020302c312c302c302c312c312c322c322c302c302c302c302c302c322c312c312c,
  0x20202020307832312c307832312c302c302c302c302c3078663231312c302c302c302c302c302c302c302c302c302c,
  0x20202020302c302c302c302c302c302c302c302c30783831322c30783831322c30783831322c30783831322c30783831322c30783831322c30783831322c30783831322c,
  0x2020202030783831322c30783831322c30783831322c30783831322c30783831322c30783831322c30783831322c30783831322c3078663831312c3078663831312c3078663831312c3078663831312c3078663831312c3078663831312c3078663831312c3078663831312c,
  0x202020203078663831312c3078663831312c3078663831312c3078663831312c3078663831312c3078663831312c3078663831312c3078663831312c302c302c302c307839322c3078666639312c302c302c302c,
  0x20202020302c302c302c302c302c302c302c302c302c302c302c302c302c302c302c302c,
  0x20202020302c302c302c302c302c302c302c302c302c302c30786431322c30786431322c30786431322c30786431322c30786431322c30786431322c,
  0x2020202030786431322c30786431322c30786431322c30786431322c30786431322c30786431322c30786431322c30786431322c30786431322c30786431322c30786431322c30786431322c3078663331312c3078663331312c3078663331312c3078663331312c,
  0x202020203078663331312c3078663331312c3078663331312c3078663331312c3078663331312c3078663331312c3078663331312c3078663331312c3078663331312c3078663331312c3078663331312c3078663331312c3078663331312c3078663331312c302c302c,
  0x20202020302c302c302c302c302c302c302c302c302c302c302c302c302c302c302c302c,
  0x20202020302c302c302c302c3078313831322c3078313831322c3078313831322c3078313831322c3078313831322c3078313831322c3078313831322c3078313831322c3078313831322c3078313831322c3078313831322c3078313831322c]

/-- UnicodeData/CasePropsData.py:522-777 the lines. -/
def caseText3 : List Nat :=
 [0x202020203078313831322c3078313831322c3078313831322c3078313831322c3078313831322c3078313831322c3078313831322c3078313831322c3078313831322c3078313831322c3078313831322c3078313831322c3078313831322c3078313831322c3078313831322c3078313831322c,
  0x202020203078313831322c3078313831322c3078313831322c3078313831322c3078313831322c3078313831322c3078313831322c302c3078653831312c3078653831312c3078653831312c3078653831312c3078653831312c3078653831312c3078653831312c3078653831312c,
  0x202020203078653831312c3078653831312c3078653831312c3078653831312c3078653831312c3078653831312c3078653831312c3078653831312c3078653831312c3078653831312c3078653831312c3078653831312c3078653831312c3078653831312c3078653831312c3078653831312c,
  0x202020203078653831312c3078653831312c3078653831312c3078653831312c3078653831312c3078653831312c3078653831312c302c307839322c3078666639312c3078346631612c3078346633612c3078346635612c3078346637392c3078346639392c307839322c,
  0x202020203078666639312c307839322c3078666639312c307839322c3078666639312c3078346662612c3078346664612c3078346666612c3078353031612c312c307839322c3078666639312c312c307839322c3078666639312c312c,
  0x20202020312c312c312c312c307832352c352c3078353033612c3078353033612c307839322c3078666639312c307839322c3078666639312c312c302c302c302c,
  0x20202020302c302c302c307839322c3078666639312c307839322c3078666639312c307834342c307834342c307834342c307839322c3078666639312c302c302c302c302c,
  0x20202020302c302c302c302c302c302c302c302c3078353035392c3078353035392c3078353035392c3078353035392c3078353035392c3078353035392c3078353035392c3078353035392c,
  0x202020203078353035392c3078353035392c3078353035392c3078353035392c3078353035392c3078353035392c3078353035392c3078353035392c3078353035392c3078353035392c3078353035392c3078353035392c3078353035392c3078353035392c3078353035392c3078353035392c,
  0x202020203078353035392c3078353035392c3078353035392c3078353035392c3078353035392c3078353035392c3078353035392c3078353035392c3078353035392c3078353035392c302c3078353035392c302c302c302c302c,
  0x20202020302c3078353035392c302c302c302c302c302c302c302c302c302c302c302c302c302c302c,
  0x20202020302c302c302c302c302c302c302c342c302c302c302c302c302c302c302c302c,
  0x20202020302c302c302c302c302c302c302c307836342c307834342c307834342c307834342c307834342c307834342c307834342c307834342c307834342c,
  0x20202020307834342c307834342c307834342c307834342c307834342c307834342c307834342c307834342c307834342c307834342c307834342c307834342c307834342c307834342c307834342c307834342c,
  0x20202020307834342c307834342c307834342c307834342c307834342c307834342c307834342c307834342c302c302c302c302c302c302c302c302c,
  0x20202020302c302c307836342c307836342c307836342c307836342c307836302c307836302c302c342c342c342c342c342c302c302c,
  0x20202020302c302c302c342c302c302c302c302c302c302c302c302c302c302c302c302c,
  0x20202020302c302c302c302c302c302c302c302c302c302c302c302c302c307836342c307836342c342c,
  0x20202020342c342c342c302c302c302c302c302c302c302c302c302c302c302c302c302c,
  0x20202020302c302c302c302c302c302c302c302c302c302c302c302c302c302c302c302c,
  0x20202020342c342c342c302c302c302c302c302c302c302c302c302c302c302c302c302c,
  0x20202020302c302c302c302c302c302c302c302c302c342c302c302c302c302c302c302c,
  0x20202020302c302c302c302c302c302c302c302c342c302c302c302c302c302c302c302c,
  0x20202020302c302c302c302c302c302c302c302c302c302c302c302c307839322c3078666639312c307839322c3078666639312c,
  0x20202020307839322c3078666639312c307839322c3078666639312c307839322c3078666639312c3078353037612c3078353062392c307839322c3078666639312c307839322c3078666639312c307839322c3078666639312c307839322c3078666639312c,
  0x20202020307839322c3078666639312c307839322c3078666639312c307839322c3078666639312c307839322c3078666639312c307839322c3078666639312c307839322c3078666639312c307839322c3078666639312c302c307834342c,
  0x20202020342c342c342c302c307834342c307834342c307834342c307834342c307834342c307834342c307834342c307834342c307834342c307834342c302c342c,
  0x20202020307839322c3078666639312c307839322c3078666639312c307839322c3078666639312c307839322c3078666639312c307839322c3078666639312c307839322c3078666639312c307839322c3078666639312c307839322c3078666639312c,
  0x20202020307839322c3078666639312c307839322c3078666639312c307839322c3078666639312c307839322c3078666639312c307839322c3078666639312c307839322c3078666639312c352c352c307834342c307834342c,
  0x20202020302c302c302c302c302c302c302c302c302c302c302c302c302c302c302c302c,
  0x20202020307834342c307834342c302c302c302c302c302c302c302c302c302c302c302c302c302c302c,
  0x20202020342c342c342c342c342c342c342c342c342c342c342c342c342c342c342c342c,
  0x20202020342c342c342c342c342c342c342c342c342c342c342c342c342c342c342c342c,
  0x20202020342c342c307839322c3078666639312c307839322c3078666639312c307839322c3078666639312c307839322c3078666639312c307839322c3078666639312c307839322c3078666639312c307839322c3078666639312c,
  0x20202020312c312c307839322c3078666639312c307839322c3078666639312c307839322c3078666639312c307839322c3078666639312c307839322c3078666639312c307839322c3078666639312c307839322c3078666639312c,
  0x20202020307839322c3078666639312c307839322c3078666639312c352c312c312c312c312c312c312c312c312c307839322c3078666639312c307839322c,
  0x202020203078666639312c3078353066612c307839322c3078666639312c307839322c3078666639312c307839322c3078666639312c307839322c3078666639312c307839322c3078666639312c342c342c342c307839322c,
  0x202020203078666639312c3078353131612c312c302c307839322c3078666639312c307839322c3078666639312c3078313831312c312c307839322c3078666639312c307839322c3078666639312c307839322c3078666639312c,
  0x20202020307839322c3078666639312c307839322c3078666639312c307839322c3078666639312c3078353133612c3078353135612c3078353137612c3078353139612c3078353133612c312c3078353162612c3078353164612c3078353166612c3078353231612c,
  0x20202020307839322c3078666639312c307839322c3078666639312c307839322c3078666639312c307839322c3078666639312c307839322c3078666639312c307839322c3078666639312c302c302c307839322c3078666639312c,
  0x202020203078653831322c3078353233612c3078353235612c307839322c3078666639312c307839322c3078666639312c302c302c302c302c302c302c302c302c302c,
  0x20202020302c302c302c302c302c302c302c302c302c302c302c302c302c307839322c3078666639312c302c,
  0x20202020352c352c312c302c302c302c302c302c302c302c342c302c302c302c307836342c302c,
  0x20202020302c302c302c342c302c302c302c302c302c302c302c302c302c302c302c302c,
  0x20202020302c302c302c302c302c302c302c302c302c342c342c302c302c302c302c302c,
  0x20202020307836342c302c302c302c302c302c302c302c302c302c302c302c302c302c302c302c,
  0x20202020302c302c302c302c307836342c342c302c302c302c302c302c302c302c302c302c302c,
  0x20202020302c302c302c302c302c302c302c302c302c302c302c302c302c302c302c302c,
  0x20202020307834342c307834342c307834342c307834342c307834342c307834342c307834342c307834342c307834342c307834342c307834342c307834342c307834342c307834342c307834342c307834342c,
  0x20202020307834342c307834342c302c302c302c302c302c302c302c302c302c302c302c302c302c342c,
  0x20202020302c302c302c302c302c302c342c342c342c342c342c307836342c307836342c307836342c302c302c,
  0x20202020302c302c302c302c302c302c302c302c302c302c302c302c302c302c302c302c,
  0x20202020302c302c302c342c342c342c342c342c342c342c342c342c342c342c302c307836302c,
  0x20202020302c302c302c302c302c302c302c302c302c302c302c302c302c302c302c302c,
  0x20202020302c302c302c307836342c302c302c342c342c342c342c302c302c342c342c302c302c,
  0x20202020307836302c302c302c302c302c302c302c302c302c302c302c302c302c302c302c342c,
  0x20202020302c302c302c302c302c302c302c302c302c302c302c302c302c302c302c302c,
  0x20202020302c342c342c342c342c342c342c302c302c342c342c302c302c342c342c302c,
  0x20202020302c302c302c302c302c302c302c302c302c302c302c342c302c302c302c302c,
  0x20202020302c302c302c302c342c302c302c302c302c302c302c302c302c302c302c302c,
  0x20202020302c302c302c302c302c302c302c302c342c302c302c302c302c302c302c302c,
  0x20202020302c302c302c302c342c302c302c302c302c302c302c302c302c302c302c302c,
  0x20202020302c302c302c302c302c302c302c302c307834342c302c307834342c307834342c307836342c302c302c307834342c,
  0x20202020307834342c302c302c302c302c302c307834342c307834342c302c307834342c302c302c302c302c302c302c,
  0x20202020302c302c302c302c302c302c302c302c302c302c302c302c302c302c302c302c,
  0x20202020302c302c302c302c302c342c302c302c302c302c302c302c302c302c302c302c,
  0x20202020302c302c302c302c342c342c302c302c302c302c302c342c342c302c307836342c302c,
  0x20202020302c302c302c302c302c302c302c302c302c302c302c302c302c302c302c302c,
  0x20202020312c312c312c312c312c312c312c312c312c312c312c312c312c312c312c312c,
  0x20202020312c312c312c3078353237392c312c312c312c312c312c312c312c342c352c352c352c352c,
  0x20202020312c312c312c312c312c312c312c312c312c342c342c342c302c302c302c302c,
  0x202020203078353239392c3078353263392c3078353266392c3078353332392c3078353335392c3078353338392c3078353362392c3078353365392c3078353431392c3078353434392c3078353437392c3078353461392c3078353464392c3078353530392c3078353533392c3078353536392c,
  0x202020203078356239392c3078356263392c3078356266392c3078356332392c3078356335392c3078356338392c3078356362392c3078356365392c3078356431392c3078356434392c3078356437392c3078356461392c3078356464392c3078356530392c3078356533392c3078356536392c,
  0x202020203078356539392c3078356563392c3078356566392c3078356632392c3078356635392c3078356638392c3078356662392c3078356665392c3078363031392c3078363034392c3078363037392c3078363061392c3078363064392c3078363130392c3078363133392c3078363136392c,
  0x202020203078353539392c3078353563392c3078353566392c3078353632392c3078353635392c3078353638392c3078353662392c3078353665392c3078353731392c3078353734392c3078353737392c3078353761392c3078353764392c3078353830392c3078353833392c3078353836392c,
  0x202020203078353839392c3078353863392c3078353866392c3078353932392c3078353935392c3078353938392c3078353962392c3078353965392c3078356131392c3078356134392c3078356137392c3078356161392c3078356164392c3078356230392c3078356233392c3078356236392c,
  0x20202020302c302c302c302c302c342c302c302c342c302c302c302c302c307836342c302c302c,
  0x20202020302c302c302c302c302c302c302c302c302c302c302c302c302c302c302c302c,
  0x202020203078363139392c3078363231392c3078363239392c3078363331392c3078363363392c3078363437392c3078363531392c302c302c302c302c302c302c302c302c302c,
  0x20202020302c302c302c3078363562392c3078363633392c3078363662392c3078363733392c3078363762392c302c302c302c302c302c302c307836342c302c,
  0x20202020302c302c302c302c302c302c302c302c302c302c302c302c302c302c302c302c,
  0x20202020302c302c342c342c342c342c342c342c342c342c342c342c342c342c342c342c,
  0x20202020342c342c342c342c302c302c302c342c302c302c302c302c302c302c302c302c,
  0x20202020302c302c302c302c307834342c307834342c307834342c307834342c307834342c307834342c307834342c307836342c307836342c307836342c307836342c307836342c,
  0x20202020307836342c307836342c307834342c307834342c302c302c302c302c302c302c302c302c302c302c302c302c,
  0x20202020302c302c302c302c302c302c342c302c302c342c302c302c302c302c302c302c,
  0x20202020302c302c302c302c302c3078313031322c3078313031322c3078313031322c3078313031322c3078313031322c3078313031322c3078313031322c3078313031322c3078313031322c3078313031322c3078313031322c,
  0x202020203078313031322c3078313031322c3078313031322c3078313031322c3078313031322c3078313031322c3078313031322c3078313031322c3078313031322c3078313031322c3078313031322c3078313031322c3078313031322c3078313031322c3078313031322c302c,
  0x20202020302c302c342c302c342c3078663031312c3078663031312c3078663031312c3078663031312c3078663031312c3078663031312c3078663031312c3078663031312c3078663031312c3078663031312c3078663031312c,
  0x202020203078663031312c3078663031312c3078663031312c3078663031312c3078663031312c3078663031312c3078663031312c3078663031312c3078663031312c3078663031312c3078663031312c3078663031312c3078663031312c3078663031312c3078663031312c302c,
  0x20202020302c302c302c302c302c302c302c302c302c302c302c302c302c302c302c302c,
  0x20202020342c302c302c302c302c302c302c302c302c302c302c302c302c302c302c302c,
  0x20202020302c302c302c342c302c302c302c302c302c302c302c302c302c302c302c302c,
  0x20202020302c302c302c302c302c302c302c302c302c342c342c342c302c302c302c302c,
  0x20202020302c302c302c302c302c302c302c302c302c302c302c302c302c302c302c302c,
  0x20202020302c302c302c302c302c302c302c302c302c307836342c302c302c302c302c302c302c,
  0x20202020302c302c302c302c302c302c302c302c302c302c302c302c302c302c302c302c,
  0x20202020302c302c307834342c307834342c307834342c307834342c307834342c302c302c302c302c302c3078313431322c3078313431322c3078313431322c3078313431322c,
  0x202020203078313431322c3078313431322c3078313431322c3078313431322c3078313431322c3078313431322c3078313431322c3078313431322c3078313431322c3078313431322c3078313431322c3078313431322c3078313431322c3078313431322c3078313431322c3078313431322c,
  0x202020203078313431322c3078313431322c3078313431322c3078313431322c3078313431322c3078313431322c3078313431322c3078313431322c3078313431322c3078313431322c3078313431322c3078313431322c3078656331312c3078656331312c3078656331312c3078656331312c,
  0x202020203078656331312c3078656331312c3078656331312c3078656331312c3078656331312c3078656331312c3078656331312c3078656331312c3078656331312c3078656331312c3078656331312c3078656331312c3078656331312c3078656331312c3078656331312c3078656331312c,
  0x202020203078656331312c3078656331312c3078656331312c3078656331312c302c302c302c302c302c302c302c302c302c302c302c302c,
  0x20202020302c302c302c302c3078313431322c3078313431322c3078313431322c3078313431322c3078313431322c3078313431322c3078313431322c3078313431322c3078313431322c3078313431322c3078313431322c3078313431322c,
  0x202020203078313431322c3078313431322c3078313431322c3078313431322c3078313431322c3078313431322c3078313431322c3078313431322c302c302c302c302c3078656331312c3078656331312c3078656331312c3078656331312c,
  0x202020203078656331312c3078656331312c3078656331312c3078656331312c3078656331312c3078656331312c3078656331312c3078656331312c3078656331312c3078656331312c3078656331312c3078656331312c3078656331312c3078656331312c3078656331312c3078656331312c,
  0x202020203078656331312c3078656331312c3078656331312c3078656331312c3078656331312c3078656331312c3078656331312c3078656331312c302c302c302c302c302c342c342c342c,
  0x20202020302c342c342c302c302c302c302c302c342c307836342c342c307834342c302c302c302c302c,
  0x20202020302c302c302c302c302c302c302c302c302c302c302c302c302c302c302c302c,
  0x20202020302c302c302c302c307834342c307836342c307836342c302c302c302c302c307836342c302c302c302c302c,
  0x20202020302c307834342c307836342c302c302c302c302c302c302c302c302c302c302c302c302c302c,
  0x20202020302c302c302c302c302c302c302c302c302c302c302c302c3078323031322c3078323031322c3078323031322c3078323031322c,
  0x202020203078323031322c3078323031322c3078323031322c3078323031322c3078323031322c3078323031322c3078323031322c3078323031322c3078323031322c3078323031322c3078323031322c3078323031322c3078323031322c3078323031322c3078323031322c3078323031322c,
  0x202020203078323031322c3078323031322c3078323031322c3078323031322c3078323031322c3078323031322c3078323031322c3078323031322c3078323031322c3078323031322c3078323031322c3078323031322c3078323031322c3078323031322c3078323031322c302c,
  0x20202020302c302c302c302c302c302c302c302c302c302c302c302c3078653031312c3078653031312c3078653031312c3078653031312c,
  0x202020203078653031312c3078653031312c3078653031312c3078653031312c3078653031312c3078653031312c3078653031312c3078653031312c3078653031312c3078653031312c3078653031312c3078653031312c3078653031312c3078653031312c3078653031312c3078653031312c,
  0x202020203078653031312c3078653031312c3078653031312c3078653031312c3078653031312c3078653031312c3078653031312c3078653031312c3078653031312c3078653031312c3078653031312c3078653031312c3078653031312c3078653031312c3078653031312c302c,
  0x20202020302c302c302c302c302c302c302c302c302c302c302c302c307834342c307834342c307834342c307834342c,
  0x20202020302c302c302c302c302c302c302c302c302c302c302c302c302c302c302c302c,
  0x20202020302c302c302c302c302c302c302c302c302c302c302c307834342c307834342c302c302c302c,
  0x20202020302c302c302c302c302c302c302c302c302c302c302c302c302c302c302c302c,
  0x20202020302c302c307836342c307836342c307834342c307834342c307834342c307836342c307834342c307836342c307836342c307836342c307836342c302c302c302c,
  0x20202020302c302c302c302c302c302c302c302c302c302c302c302c302c302c302c302c,
  0x20202020302c302c302c302c302c302c302c302c342c342c342c342c342c342c342c342c,
  0x20202020342c342c307836342c302c302c302c302c302c302c302c302c302c302c302c302c302c,
  0x20202020302c302c302c302c302c302c302c302c302c302c302c302c302c302c302c342c,
  0x20202020342c342c342c302c302c307836342c307836342c302c302c342c302c302c307834342c307834342c307834342c302c,
  0x20202020302c302c302c302c302c302c302c302c302c302c302c302c302c302c302c302c,
  0x20202020302c302c302c302c302c302c302c302c302c302c302c302c302c302c302c342c,
  0x20202020342c342c342c342c302c342c342c342c342c342c342c307836342c307836342c302c302c302c,
  0x20202020302c302c302c302c302c302c302c302c302c302c302c302c302c302c302c302c,
  0x20202020302c302c302c307836342c302c302c302c302c302c302c302c302c302c302c302c302c,
  0x20202020302c302c302c302c302c302c302c302c302c302c342c342c342c342c342c342c,
  0x20202020342c342c342c302c307836302c302c302c302c302c302c302c302c302c342c307836342c342c,
  0x20202020342c302c302c342c302c302c302c302c302c302c302c302c302c302c302c302c,
  0x20202020302c302c302c302c302c302c302c342c342c342c302c302c342c307836302c307836342c342c,
  0x20202020302c302c302c302c302c302c342c302c302c302c302c342c342c342c342c342c,
  0x20202020342c307836342c307836342c302c302c302c302c302c302c302c302c302c302c302c302c302c,
  0x20202020302c302c302c302c302c302c302c302c342c302c302c302c302c302c302c302c,
  0x20202020302c302c302c302c302c307836302c302c302c302c302c302c302c302c302c302c302c,
  0x20202020302c302c302c302c302c302c302c302c302c302c307834342c307834342c307834342c307834342c307834342c307834342c,
  0x20202020307834342c302c302c302c307834342c307834342c307834342c307834342c307834342c302c302c302c302c302c302c302c,
  0x20202020302c302c302c302c302c302c307836342c342c342c302c307836342c302c302c302c302c302c,
  0x20202020302c302c302c302c302c302c302c302c302c302c302c302c302c302c302c302c,
  0x20202020302c302c307834342c302c302c302c302c302c302c302c302c302c302c302c302c302c,
  0x20202020302c302c302c302c302c302c302c342c342c342c342c342c342c302c342c302c,
  0x20202020302c302c302c342c342c302c307836342c307836342c302c302c302c302c302c302c302c302c,
  0x20202020302c302c302c302c302c302c302c302c302c302c302c302c302c302c302c302c,
  0x20202020302c302c302c302c302c302c342c342c342c342c302c302c302c302c302c302c,
  0x20202020342c342c302c307836342c307836342c302c302c302c302c302c302c302c302c302c302c302c,
  0x20202020302c302c302c302c302c302c302c302c302c302c302c302c302c302c302c302c,
  0x20202020342c342c302c302c302c302c302c302c302c302c302c302c302c302c302c302c,
  0x20202020302c302c302c302c302c302c302c342c342c342c342c342c342c342c342c302c,
  0x20202020302c342c302c307836342c302c302c302c302c302c302c302c302c302c302c302c342c,
  0x20202020302c342c302c302c342c342c342c342c342c342c307836302c307836342c302c302c302c302c,
  0x20202020302c302c302c302c302c302c302c302c302c302c302c302c302c302c302c302c,
  0x20202020302c302c302c302c302c302c302c302c302c342c342c342c302c302c342c342c,
  0x20202020342c342c302c342c342c342c342c307836342c302c302c302c302c302c302c302c302c,
  0x20202020302c302c302c302c302c302c302c302c302c302c302c302c302c302c302c342c,
  0x20202020342c342c342c342c342c342c342c342c302c307836342c307836342c302c302c302c302c302c,
  0x202020203078313031322c3078313031322c3078313031322c3078313031322c3078313031322c3078313031322c3078313031322c3078313031322c3078313031322c3078313031322c3078313031322c3078313031322c3078313031322c3078313031322c3078313031322c3078313031322c,
  0x202020203078313031322c3078313031322c3078313031322c3078313031322c3078313031322c3078313031322c3078313031322c3078313031322c3078313031322c3078313031322c3078313031322c3078313031322c3078313031322c3078313031322c3078313031322c3078313031322c,
  0x202020203078663031312c3078663031312c3078663031312c3078663031312c3078663031312c3078663031312c3078663031312c3078663031312c3078663031312c3078663031312c3078663031312c3078663031312c3078663031312c3078663031312c3078663031312c3078663031312c,
  0x202020203078663031312c3078663031312c3078663031312c3078663031312c3078663031312c3078663031312c3078663031312c3078663031312c3078663031312c3078663031312c3078663031312c3078663031312c3078663031312c3078663031312c3078663031312c3078663031312c,
  0x20202020302c302c302c302c302c302c302c302c302c302c302c302c302c302c302c302c,
  0x20202020302c302c302c302c302c302c302c302c302c302c302c342c342c307836302c307836342c302c,
  0x20202020302c302c302c307836342c302c302c302c302c302c302c302c302c302c302c302c302c,
  0x20202020302c302c302c302c302c302c302c302c302c302c302c302c302c302c302c302c,
  0x20202020342c342c342c342c302c302c342c342c302c302c302c302c302c342c342c342c,
  0x20202020342c342c342c342c342c342c342c302c302c302c302c302c302c302c302c302c,
  0x20202020302c302c302c302c302c302c302c302c302c302c302c302c302c302c302c342c,
  0x20202020307836342c342c342c342c342c302c302c342c342c342c342c302c302c302c302c302c,
  0x20202020302c302c302c307836342c302c302c302c302c302c302c302c302c302c342c342c342c,
  0x20202020342c342c342c302c302c342c342c342c302c302c302c302c302c302c302c302c,
  0x20202020302c302c342c342c342c342c342c342c342c342c342c342c342c342c342c302c,
  0x20202020342c307836342c302c302c302c302c302c302c302c302c302c302c302c302c302c302c,
  0x20202020302c302c302c302c342c342c342c342c342c342c342c302c342c342c342c342c,
  0x20202020342c342c302c307836342c342c342c342c342c342c342c342c342c302c302c342c342c,
  0x20202020342c342c342c342c342c302c342c342c302c342c342c302c302c302c302c302c,
  0x20202020302c302c302c302c302c302c302c302c302c302c302c302c302c342c342c342c,
  0x20202020342c342c342c302c302c302c342c302c342c342c302c342c342c342c307836342c342c,
  0x20202020307836342c307836342c302c342c302c302c302c302c302c302c302c302c302c302c302c302c,
  0x20202020302c302c302c302c302c302c302c302c302c302c302c302c342c342c302c302c,
  0x20202020302c342c302c307836342c302c302c302c302c302c302c302c302c302c302c302c302c,
  0x20202020302c302c302c302c302c302c302c342c342c302c302c302c302c302c302c302c,
  0x20202020302c302c302c302c302c302c302c302c302c302c302c302c342c342c342c342c,
  0x20202020342c342c342c342c342c302c302c302c302c302c302c302c302c302c302c302c,
  0x20202020302c302c302c302c302c302c302c302c307836342c307836342c307836342c307836342c307836342c302c302c302c,
  0x20202020302c302c302c302c302c302c302c302c302c302c302c302c302c302c302c302c,
  0x20202020307834342c307834342c307834342c307834342c307834342c307834342c307834342c302c302c302c302c302c302c302c302c302c,
  0x20202020302c302c302c302c302c302c302c342c342c342c342c342c342c342c342c342c,
  0x20202020342c342c342c342c342c342c342c342c342c342c302c342c342c302c302c302c,
  0x20202020302c302c302c302c302c302c302c302c307836302c307836302c302c302c302c302c302c302c,
  0x20202020302c302c302c302c302c302c302c302c302c302c302c302c302c302c302c302c,
  0x20202020302c302c302c302c302c302c302c302c302c342c307836342c302c302c302c302c302c,
  0x20202020302c307836302c307836302c307836342c307836342c307836342c302c302c302c307836302c307836302c307836302c307836302c307836302c307836302c342c,
  0x20202020342c342c342c342c342c342c342c307836342c307836342c307836342c307836342c307836342c307836342c307836342c307836342c302c,
  0x20202020302c307834342c307834342c307834342c307834342c307834342c307836342c307836342c302c302c302c302c302c302c302c302c,
  0x20202020302c302c302c302c302c302c302c302c302c302c302c302c302c302c307834342c307834342c,
  0x20202020307834342c307834342c302c302c302c302c302c302c302c302c302c302c302c302c302c302c,
  0x20202020302c302c302c302c302c302c307834342c307834342c307834342c302c302c302c302c302c302c302c,
  0x20202020302c302c302c302c302c302c302c302c302c302c302c302c302c302c302c302c,
  0x20202020302c302c302c302c322c322c322c322c322c322c322c322c322c322c322c322c,
  0x20202020322c322c322c322c322c322c322c322c322c322c322c322c322c322c312c312c,
  0x20202020312c312c312c312c312c312c307832312c307832312c312c312c312c312c312c312c312c312c,
  0x20202020312c312c312c312c312c312c312c312c322c322c322c322c322c322c322c322c,
  0x20202020322c322c322c322c322c322c312c312c312c312c312c312c312c302c307832312c307832312c,
  0x20202020312c312c312c312c312c312c312c312c322c322c322c322c322c322c322c322c,
  0x20202020322c322c322c322c322c322c322c322c322c322c322c322c322c322c322c322c,
  0x20202020322c322c312c312c312c312c312c312c312c312c307832312c307832312c312c312c312c312c,
  0x20202020312c312c312c312c312c312c312c312c312c312c312c312c322c302c322c322c,
  0x20202020302c302c322c302c302c322c322c302c302c322c322c322c322c302c322c322c,
  0x20202020322c322c322c322c322c322c312c312c312c312c302c312c302c312c307832312c307832312c,
  0x20202020312c312c312c312c302c312c312c312c312c312c312c312c312c312c312c312c,
  0x20202020322c322c322c322c322c322c322c322c322c322c322c322c322c322c322c322c,
  0x20202020312c312c312c312c322c322c302c322c322c322c322c302c302c322c322c322c,
  0x20202020322c322c322c322c322c302c322c322c322c322c322c322c322c302c312c312c,
  0x20202020312c312c312c312c312c312c307832312c307832312c312c312c312c312c312c312c312c312c,
  0x20202020312c312c312c312c312c312c312c312c322c322c302c322c322c322c322c302c,
  0x20202020322c322c322c322c322c302c322c302c302c302c322c322c322c322c322c322c,
  0x20202020322c302c312c312c312c312c312c312c312c312c307832312c307832312c312c312c312c312c,
  0x20202020312c312c312c312c312c312c312c312c322c322c322c322c322c322c322c322c,
  0x20202020322c322c322c322c322c322c322c322c322c322c322c322c312c312c312c312c,
  0x20202020312c312c312c312c312c312c312c312c312c312c312c312c322c322c322c322c,
  0x20202020322c322c322c322c322c322c322c322c322c322c322c322c312c312c312c312c,
  0x20202020312c312c302c302c322c322c322c322c322c322c322c322c322c322c322c322c,
  0x20202020322c322c322c322c322c322c322c322c322c322c322c322c322c302c312c312c,
  0x20202020312c312c312c312c312c312c312c312c312c312c312c312c312c312c312c312c,
  0x20202020312c312c312c312c312c312c312c302c312c312c312c312c312c312c322c322c,
  0x20202020322c322c322c322c322c322c322c322c322c322c322c322c322c322c322c322c,
  0x20202020322c322c322c322c322c322c322c302c312c312c312c312c312c312c312c312c,
  0x20202020312c312c312c312c312c312c312c312c312c312c312c312c312c302c312c312c,
  0x20202020312c312c312c312c322c322c322c322c322c322c322c322c322c322c322c322c,
  0x20202020322c322c322c322c312c312c312c302c312c312c312c312c312c312c322c312c,
  0x20202020302c302c302c302c302c302c302c302c302c302c302c302c302c302c302c302c,
  0x20202020302c302c302c302c342c342c342c342c342c342c342c342c342c342c342c342c,
  0x20202020342c342c342c342c342c342c342c342c342c342c342c302c302c302c302c342c,
  0x20202020342c342c342c342c342c342c342c342c342c342c342c342c342c302c302c302c,
  0x20202020302c302c302c302c302c342c302c302c302c302c302c302c302c302c302c302c,
  0x20202020342c302c302c302c302c302c302c302c302c302c302c302c302c302c302c302c,
  0x20202020302c302c302c302c302c302c302c342c342c342c342c342c302c342c342c342c,
  0x20202020342c342c342c342c342c342c342c342c342c342c342c342c302c302c302c302c,
  0x20202020302c302c302c302c302c302c302c302c302c302c302c302c307834342c307834342c307834342c307834342c,
  0x20202020307834342c307834342c307834342c302c307834342c307834342c307834342c307834342c307834342c307834342c307834342c307834342c307834342c307834342c307834342c307834342c,
  0x20202020307834342c307834342c307834342c307834342c307834342c302c302c307834342c307834342c307834342c307834342c307834342c307834342c307834342c302c307834342c,
  0x20202020307834342c302c307834342c307834342c307834342c307834342c307834342c302c302c302c302c302c302c302c302c302c,
  0x20202020302c302c302c302c302c302c302c302c302c302c302c302c307834342c307834342c307834342c307834342c,
  0x20202020307834342c307834342c307834342c342c342c342c342c342c342c342c302c302c302c302c302c302c,
  0x20202020302c302c302c302c302c302c302c302c302c302c302c302c307836342c307836342c307836342c307836342c,
  0x20202020307836342c307836342c307836342c302c302c302c302c302c302c302c302c302c3078313131322c3078313131322c3078313131322c3078313131322c,
  0x202020203078313131322c3078313131322c3078313131322c3078313131322c3078313131322c3078313131322c3078313131322c3078313131322c3078313131322c3078313131322c3078313131322c3078313131322c3078313131322c3078313131322c3078313131322c3078313131322c,
  0x202020203078313131322c3078313131322c3078313131322c3078313131322c3078313131322c3078313131322c3078313131322c3078313131322c3078313131322c3078313131322c3078313131322c3078313131322c3078313131322c3078313131322c3078656631312c3078656631312c,
  0x202020203078656631312c3078656631312c3078656631312c3078656631312c3078656631312c3078656631312c3078656631312c3078656631312c3078656631312c3078656631312c3078656631312c3078656631312c3078656631312c3078656631312c3078656631312c3078656631312c,
  0x202020203078656631312c3078656631312c3078656631312c3078656631312c3078656631312c3078656631312c3078656631312c3078656631312c3078656631312c3078656631312c3078656631312c3078656631312c307834342c307834342c307834342c307834342c,
  0x20202020307834342c307834342c307836342c342c302c302c302c302c302c302c302c302c302c302c302c302c,
  0x20202020302c302c302c302c302c302c302c302c322c322c322c322c322c322c322c322c,
  0x20202020322c322c302c302c302c302c302c302c322c322c322c322c322c322c322c322c]

/-- UnicodeData/CasePropsData.py:778-782 the lines. -/
def caseText4 : List Nat :=
 [0x20202020322c322c322c322c322c322c322c322c322c322c302c302c302c302c302c302c,
  0x20202020302c302c302c302c302c302c302c302c302c302c302c302c302c302c302c302c,
  0x20202020342c342c342c342c342c342c342c342c342c342c342c342c342c342c342c342c,
  0x20202020302c302c302c302c302c302c302c302c302c302c302c302c302c302c302c302c,
  0x20202020302c302c302c30]

/-- UnicodeData/CasePropsData.py:783-785 the lines. -/
def caseText5 : List Nat :=
 [0x5d,
  0x0,
  0x75636173655f70726f70735f657863657074696f6e73203d205b]

/-- UnicodeData/CasePropsData.py:786-890 the lines. -/
def caseText6 : List Nat :=
 [0x202020203078633835302c307832302c322c30783133302c30783133312c3078343831302c307832302c30783834312c307836622c312c3078323132612c30783834312c307837332c312c30783137662c3078356335302c,
  0x20202020307832302c322c30783133302c30783133312c30783834342c307834622c312c3078323132612c30783834342c307835332c312c30783137662c30783830362c30783362632c30783339632c30783834312c,
  0x20202020307865352c312c3078323132622c30783863302c312c3078323232302c307837332c307837332c307835332c307835332c307835332c307837332c3078316539652c30783834342c307863352c312c,
  0x202020203078323132622c3078343831302c312c3078636535302c307863372c322c307834392c30783133312c30783834342c307834392c322c307836392c30783133302c30783838302c3078323232302c30783262632c,
  0x20202020307836652c30783262632c307834652c30783262632c307834652c30783830362c307837332c307835332c30783830392c30783163362c30783163352c30783830642c30783163362c30783163342c30783163352c30783830632c,
  0x2020202030783163342c30783163352c30783830392c30783163392c30783163382c30783830642c30783163392c30783163372c30783163382c30783830632c30783163372c30783163382c30783830392c30783163632c30783163622c30783830642c,
  0x2020202030783163632c30783163612c30783163622c30783830632c30783163612c30783163622c30783838302c3078323232302c307836612c30783330632c307834612c30783330632c307834612c30783330632c30783830392c30783166332c,
  0x2020202030783166322c30783830642c30783166332c30783166312c30783166322c30783830632c30783166312c30783166322c30783831302c3078326132622c30783831302c3078326132382c30783831302c3078326133662c30783831302c3078326131662c,
  0x2020202030783831302c3078326131632c30783831302c3078326131652c30783831302c3078613534662c30783831302c3078613534622c30783831302c3078613532382c30783831302c3078613534342c30783831302c3078323966372c30783831302c3078613534312c,
  0x2020202030783831302c3078323966642c30783831302c3078323965372c30783831302c3078613534332c30783831302c3078613532612c3078313831302c3078613531352c30783831302c3078613531322c3078363830302c3078333834362c30783362392c30783339392c,
  0x20202020312c3078316662652c30783863302c312c3078333333302c30783362392c30783330382c30783330312c30783339392c30783330382c30783330312c30783339392c30783330382c30783330312c3078316664332c30783834312c,
  0x2020202030783362322c312c30783364302c30783834312c30783362352c312c30783366352c30783834312c30783362382c322c30783364312c30783366342c30783834312c30783362392c322c30783334352c,
  0x202020203078316662652c30783834312c30783362612c312c30783366302c30783834312c30783362632c312c307862352c30783834312c30783363302c312c30783364362c30783834312c30783363312c312c,
  0x2020202030783366312c3078343835302c307832302c312c30783363322c30783834312c30783363362c312c30783364352c30783834312c30783363392c312c3078323132362c30783863302c312c3078333333302c,
  0x2020202030783363352c30783330382c30783330312c30783361352c30783330382c30783330312c30783361352c30783330382c30783330312c3078316665332c30783834342c30783339322c312c30783364302c30783834342c30783339352c,
  0x20202020312c30783366352c30783834342c30783339382c322c30783364312c30783366342c30783834342c30783339392c322c30783334352c3078316662652c30783834342c30783339612c312c30783366302c,
  0x2020202030783834342c30783339632c312c307862352c30783834342c30783361302c312c30783364362c30783834342c30783361312c312c30783366312c30783830362c30783363332c30783361332c30783834342c,
  0x2020202030783361332c312c30783363322c30783834342c30783361362c312c30783364352c30783834342c30783361392c312c3078323132362c30783830362c30783362322c30783339322c30783834362c30783362382c,
  0x2020202030783339382c312c30783366342c30783830362c30783363362c30783361362c30783830362c30783363302c30783361302c30783830362c30783362612c30783339612c30783830362c30783363312c30783361312c30783834312c,
  0x2020202030783362382c322c30783339382c30783364312c30783830362c30783362352c30783339352c30783834312c30783433322c312c3078316338302c30783834312c30783433342c312c3078316338312c30783834312c,
  0x2020202030783433652c312c3078316338322c30783834312c30783434312c312c3078316338332c30783834312c30783434322c322c3078316338342c3078316338352c30783834312c30783434612c312c3078316338362c,
  0x2020202030783834342c30783431322c312c3078316338302c30783834342c30783431342c312c3078316338312c30783834342c30783431652c312c3078316338322c30783834342c30783432312c312c3078316338332c,
  0x2020202030783834342c30783432322c322c3078316338342c3078316338352c30783834342c30783432612c312c3078316338362c30783834312c30783436332c312c3078316338372c30783834342c30783436322c312c,
  0x202020203078316338372c3078343838302c307832302c30783536352c30783538322c30783831302c3078316336302c30783830632c3078316339302c3078313064302c30783830632c3078316339312c3078313064312c30783830632c3078316339322c3078313064322c,
  0x2020202030783830632c3078316339332c3078313064332c30783830632c3078316339342c3078313064342c30783830632c3078316339352c3078313064352c30783830632c3078316339362c3078313064362c30783830632c3078316339372c3078313064372c30783830632c,
  0x202020203078316339382c3078313064382c30783830632c3078316339392c3078313064392c30783830632c3078316339612c3078313064612c30783830632c3078316339622c3078313064622c30783830632c3078316339632c3078313064632c30783830632c3078316339642c,
  0x202020203078313064642c30783830632c3078316339652c3078313064652c30783830632c3078316339662c3078313064662c30783830632c3078316361302c3078313065302c30783830632c3078316361312c3078313065312c30783830632c3078316361322c3078313065322c,
  0x2020202030783830632c3078316361332c3078313065332c30783830632c3078316361342c3078313065342c30783830632c3078316361352c3078313065352c30783830632c3078316361362c3078313065362c30783830632c3078316361372c3078313065372c30783830632c,
  0x202020203078316361382c3078313065382c30783830632c3078316361392c3078313065392c30783830632c3078316361612c3078313065612c30783830632c3078316361622c3078313065622c30783830632c3078316361632c3078313065632c30783830632c3078316361642c,
  0x202020203078313065642c30783830632c3078316361652c3078313065652c30783830632c3078316361662c3078313065662c30783830632c3078316362302c3078313066302c30783830632c3078316362312c3078313066312c30783830632c3078316362322c3078313066322c,
  0x2020202030783830632c3078316362332c3078313066332c30783830632c3078316362342c3078313066342c30783830632c3078316362352c3078313066352c30783830632c3078316362362c3078313066362c30783830632c3078316362372c3078313066372c30783830632c,
  0x202020203078316362382c3078313066382c30783830632c3078316362392c3078313066392c30783830632c3078316362612c3078313066612c30783830632c3078316362642c3078313066642c30783830632c3078316362652c3078313066652c30783830632c3078316362662c,
  0x202020203078313066662c30786131302c3078393764302c30786131302c382c30783830362c3078313366302c3078313366302c30783830362c3078313366312c3078313366312c30783830362c3078313366322c3078313366322c30783830362c3078313366332c,
  0x202020203078313366332c30783830362c3078313366342c3078313366342c30783830362c3078313366352c3078313366352c30783830362c30783433322c30783431322c30783830362c30783433342c30783431342c30783830362c30783433652c30783431652c,
  0x2020202030783830362c30783434312c30783432312c30783834362c30783434322c30783432322c312c3078316338352c30783834362c30783434322c30783432322c312c3078316338342c30783830362c30783434612c30783432612c,
  0x2020202030783830362c30783436332c30783436322c30783830362c3078613634622c3078613634612c30786331302c30786263302c30783831302c3078386130342c30783831302c30786565362c30783831302c3078386133382c30783834312c3078316536312c,
  0x20202020312c3078316539622c30783834342c3078316536302c312c3078316539622c30783838302c3078323232302c307836382c30783333312c307834382c30783333312c307834382c30783333312c30783838302c3078323232302c,
  0x20202020307837342c30783330382c307835342c30783330382c307835342c30783330382c30783838302c3078323232302c307837372c30783330612c307835372c30783330612c307835372c30783330612c30783838302c3078323232302c,
  0x20202020307837392c30783330612c307835392c30783330612c307835392c30783330612c30783838302c3078323232302c307836312c30783262652c307834312c30783262652c307834312c30783262652c30783830362c3078316536312c,
  0x202020203078316536302c30786339302c3078316462662c307832302c307837332c307837332c30783838302c3078323232302c30783363352c30783331332c30783361352c30783331332c30783361352c30783331332c30783838302c3078333333302c,
  0x2020202030783363352c30783331332c30783330302c30783361352c30783331332c30783330302c30783361352c30783331332c30783330302c30783838302c3078333333302c30783363352c30783331332c30783330312c30783361352c30783331332c,
  0x2020202030783330312c30783361352c30783331332c30783330312c30783838302c3078333333302c30783363352c30783331332c30783334322c30783361352c30783331332c30783334322c30783361352c30783331332c30783334322c30783839302c,
  0x20202020382c30783232302c3078316630302c30783362392c3078316630382c30783339392c30783839302c382c30783232302c3078316630312c30783362392c3078316630392c30783339392c30783839302c382c30783232302c,
  0x202020203078316630322c30783362392c3078316630612c30783339392c30783839302c382c30783232302c3078316630332c30783362392c3078316630622c30783339392c30783839302c382c30783232302c3078316630342c30783362392c,
  0x202020203078316630632c30783339392c30783839302c382c30783232302c3078316630352c30783362392c3078316630642c30783339392c30783839302c382c30783232302c3078316630362c30783362392c3078316630652c30783339392c,
  0x2020202030783839302c382c30783232302c3078316630372c30783362392c3078316630662c30783339392c30786339302c382c30783232302c3078316630302c30783362392c3078316630382c30783339392c30786339302c382c,
  0x2020202030783232302c3078316630312c30783362392c3078316630392c30783339392c30786339302c382c30783232302c3078316630322c30783362392c3078316630612c30783339392c30786339302c382c30783232302c3078316630332c,
  0x2020202030783362392c3078316630622c30783339392c30786339302c382c30783232302c3078316630342c30783362392c3078316630632c30783339392c30786339302c382c30783232302c3078316630352c30783362392c3078316630642c,
  0x2020202030783339392c30786339302c382c30783232302c3078316630362c30783362392c3078316630652c30783339392c30786339302c382c30783232302c3078316630372c30783362392c3078316630662c30783339392c30783839302c,
  0x20202020382c30783232302c3078316632302c30783362392c3078316632382c30783339392c30783839302c382c30783232302c3078316632312c30783362392c3078316632392c30783339392c30783839302c382c30783232302c,
  0x202020203078316632322c30783362392c3078316632612c30783339392c30783839302c382c30783232302c3078316632332c30783362392c3078316632622c30783339392c30783839302c382c30783232302c3078316632342c30783362392c,
  0x202020203078316632632c30783339392c30783839302c382c30783232302c3078316632352c30783362392c3078316632642c30783339392c30783839302c382c30783232302c3078316632362c30783362392c3078316632652c30783339392c,
  0x2020202030783839302c382c30783232302c3078316632372c30783362392c3078316632662c30783339392c30786339302c382c30783232302c3078316632302c30783362392c3078316632382c30783339392c30786339302c382c,
  0x2020202030783232302c3078316632312c30783362392c3078316632392c30783339392c30786339302c382c30783232302c3078316632322c30783362392c3078316632612c30783339392c30786339302c382c30783232302c3078316632332c,
  0x2020202030783362392c3078316632622c30783339392c30786339302c382c30783232302c3078316632342c30783362392c3078316632632c30783339392c30786339302c382c30783232302c3078316632352c30783362392c3078316632642c,
  0x2020202030783339392c30786339302c382c30783232302c3078316632362c30783362392c3078316632652c30783339392c30786339302c382c30783232302c3078316632372c30783362392c3078316632662c30783339392c30783839302c,
  0x20202020382c30783232302c3078316636302c30783362392c3078316636382c30783339392c30783839302c382c30783232302c3078316636312c30783362392c3078316636392c30783339392c30783839302c382c30783232302c,
  0x202020203078316636322c30783362392c3078316636612c30783339392c30783839302c382c30783232302c3078316636332c30783362392c3078316636622c30783339392c30783839302c382c30783232302c3078316636342c30783362392c,
  0x202020203078316636632c30783339392c30783839302c382c30783232302c3078316636352c30783362392c3078316636642c30783339392c30783839302c382c30783232302c3078316636362c30783362392c3078316636652c30783339392c,
  0x2020202030783839302c382c30783232302c3078316636372c30783362392c3078316636662c30783339392c30786339302c382c30783232302c3078316636302c30783362392c3078316636382c30783339392c30786339302c382c,
  0x2020202030783232302c3078316636312c30783362392c3078316636392c30783339392c30786339302c382c30783232302c3078316636322c30783362392c3078316636612c30783339392c30786339302c382c30783232302c3078316636332c,
  0x2020202030783362392c3078316636622c30783339392c30786339302c382c30783232302c3078316636342c30783362392c3078316636632c30783339392c30786339302c382c30783232302c3078316636352c30783362392c3078316636642c,
  0x2020202030783339392c30786339302c382c30783232302c3078316636362c30783362392c3078316636652c30783339392c30786339302c382c30783232302c3078316636372c30783362392c3078316636662c30783339392c30783838302c,
  0x202020203078323232302c3078316637302c30783362392c3078316662612c30783339392c3078316662612c30783334352c30783839302c392c30783232302c30783362312c30783362392c30783339312c30783339392c30783838302c3078323232302c,
  0x2020202030783361632c30783362392c30783338362c30783339392c30783338362c30783334352c30783838302c3078323232302c30783362312c30783334322c30783339312c30783334322c30783339312c30783334322c30783838302c3078333333302c,
  0x2020202030783362312c30783334322c30783362392c30783339312c30783334322c30783339392c30783339312c30783334322c30783334352c30786339302c392c30783232302c30783362312c30783362392c30783339312c30783339392c,
  0x2020202030783834362c30783362392c30783339392c312c30783334352c30783838302c3078323232302c3078316637342c30783362392c3078316663612c30783339392c3078316663612c30783334352c30783839302c392c30783232302c,
  0x2020202030783362372c30783362392c30783339372c30783339392c30783838302c3078323232302c30783361652c30783362392c30783338392c30783339392c30783338392c30783334352c30783838302c3078323232302c30783362372c30783334322c,
  0x2020202030783339372c30783334322c30783339372c30783334322c30783838302c3078333333302c30783362372c30783334322c30783362392c30783339372c30783334322c30783339392c30783339372c30783334322c30783334352c30786339302c,
  0x20202020392c30783232302c30783362372c30783362392c30783339372c30783339392c30783838302c3078333333302c30783362392c30783330382c30783330302c30783339392c30783330382c30783330302c30783339392c30783330382c,
  0x2020202030783330302c30783863302c312c3078333333302c30783362392c30783330382c30783330312c30783339392c30783330382c30783330312c30783339392c30783330382c30783330312c30783339302c30783838302c3078323232302c,
  0x2020202030783362392c30783334322c30783339392c30783334322c30783339392c30783334322c30783838302c3078333333302c30783362392c30783330382c30783334322c30783339392c30783330382c30783334322c30783339392c30783330382c,
  0x2020202030783334322c30783838302c3078333333302c30783363352c30783330382c30783330302c30783361352c30783330382c30783330302c30783361352c30783330382c30783330302c30783863302c312c3078333333302c30783363352c,
  0x2020202030783330382c30783330312c30783361352c30783330382c30783330312c30783361352c30783330382c30783330312c30783362302c30783838302c3078323232302c30783363312c30783331332c30783361312c30783331332c30783361312c,
  0x2020202030783331332c30783838302c3078323232302c30783363352c30783334322c30783361352c30783334322c30783361352c30783334322c30783838302c3078333333302c30783363352c30783330382c30783334322c30783361352c30783330382c,
  0x2020202030783334322c30783361352c30783330382c30783334322c30783838302c3078323232302c3078316637632c30783362392c3078316666612c30783339392c3078316666612c30783334352c30783839302c392c30783232302c30783363392c,
  0x2020202030783362392c30783361392c30783339392c30783838302c3078323232302c30783363652c30783362392c30783338662c30783339392c30783338662c30783334352c30783838302c3078323232302c30783363392c30783334322c30783361392c,
  0x2020202030783334322c30783361392c30783334322c30783838302c3078333333302c30783363392c30783334322c30783362392c30783361392c30783334322c30783339392c30783361392c30783334322c30783334352c30786339302c392c,
  0x2020202030783232302c30783363392c30783362392c30783361392c30783339392c30786335302c3078316435642c312c30783361392c30786335302c3078323062662c312c307834622c30786335302c3078323034362c312c,
  0x20202020307863352c30786331302c3078323966372c30786331302c30786565362c30786331302c3078323965372c30786331302c3078326132622c30786331302c3078326132382c30786331302c3078326131632c30786331302c3078323966642c30786331302c,
  0x202020203078326131662c30786331302c3078326131652c30786331302c3078326133662c30786331302c3078316336302c30783834312c3078613634622c312c3078316338382c30783834342c3078613634612c312c3078316338382c30786331302c,
  0x202020203078386130342c30786331302c3078613532382c30786331302c3078613534342c30786331302c3078613534662c30786331302c3078613534622c30786331302c3078613534312c30786331302c3078613531322c30786331302c3078613532612c30786331302c,
  0x202020203078613531352c30783831302c30783361302c30786331302c3078613534332c30786331302c3078386133382c30786331302c30783361302c30783830362c3078313361302c3078313361302c30783830362c3078313361312c3078313361312c30783830362c,
  0x202020203078313361322c3078313361322c30783830362c3078313361332c3078313361332c30783830362c3078313361342c3078313361342c30783830362c3078313361352c3078313361352c30783830362c3078313361362c3078313361362c30783830362c3078313361372c,
  0x202020203078313361372c30783830362c3078313361382c3078313361382c30783830362c3078313361392c3078313361392c30783830362c3078313361612c3078313361612c30783830362c3078313361622c3078313361622c30783830362c3078313361632c3078313361632c,
  0x2020202030783830362c3078313361642c3078313361642c30783830362c3078313361652c3078313361652c30783830362c3078313361662c3078313361662c30783830362c3078313362302c3078313362302c30783830362c3078313362312c3078313362312c30783830362c,
  0x202020203078313362322c3078313362322c30783830362c3078313362332c3078313362332c30783830362c3078313362342c3078313362342c30783830362c3078313362352c3078313362352c30783830362c3078313362362c3078313362362c30783830362c3078313362372c,
  0x202020203078313362372c30783830362c3078313362382c3078313362382c30783830362c3078313362392c3078313362392c30783830362c3078313362612c3078313362612c30783830362c3078313362622c3078313362622c30783830362c3078313362632c3078313362632c,
  0x2020202030783830362c3078313362642c3078313362642c30783830362c3078313362652c3078313362652c30783830362c3078313362662c3078313362662c30783830362c3078313363302c3078313363302c30783830362c3078313363312c3078313363312c30783830362c,
  0x202020203078313363322c3078313363322c30783830362c3078313363332c3078313363332c30783830362c3078313363342c3078313363342c30783830362c3078313363352c3078313363352c30783830362c3078313363362c3078313363362c30783830362c3078313363372c,
  0x202020203078313363372c30783830362c3078313363382c3078313363382c30783830362c3078313363392c3078313363392c30783830362c3078313363612c3078313363612c30783830362c3078313363622c3078313363622c30783830362c3078313363632c3078313363632c,
  0x2020202030783830362c3078313363642c3078313363642c30783830362c3078313363652c3078313363652c30783830362c3078313363662c3078313363662c30783830362c3078313364302c3078313364302c30783830362c3078313364312c3078313364312c30783830362c,
  0x202020203078313364322c3078313364322c30783830362c3078313364332c3078313364332c30783830362c3078313364342c3078313364342c30783830362c3078313364352c3078313364352c30783830362c3078313364362c3078313364362c30783830362c3078313364372c,
  0x202020203078313364372c30783830362c3078313364382c3078313364382c30783830362c3078313364392c3078313364392c30783830362c3078313364612c3078313364612c30783830362c3078313364622c3078313364622c30783830362c3078313364632c3078313364632c,
  0x2020202030783830362c3078313364642c3078313364642c30783830362c3078313364652c3078313364652c30783830362c3078313364662c3078313364662c30783830362c3078313365302c3078313365302c30783830362c3078313365312c3078313365312c30783830362c,
  0x202020203078313365322c3078313365322c30783830362c3078313365332c3078313365332c30783830362c3078313365342c3078313365342c30783830362c3078313365352c3078313365352c30783830362c3078313365362c3078313365362c30783830362c3078313365372c,
  0x202020203078313365372c30783830362c3078313365382c3078313365382c30783830362c3078313365392c3078313365392c30783830362c3078313365612c3078313365612c30783830362c3078313365622c3078313365622c30783830362c3078313365632c3078313365632c,
  0x2020202030783830362c3078313365642c3078313365642c30783830362c3078313365652c3078313365652c30783830362c3078313365662c3078313365662c30783838302c3078323232302c307836362c307836362c307834362c307834362c307834362c,
  0x20202020307836362c30783838302c3078323232302c307836362c307836392c307834362c307834392c307834362c307836392c30783838302c3078323232302c307836362c307836632c307834362c307834632c307834362c,
  0x20202020307836632c30783838302c3078333333302c307836362c307836362c307836392c307834362c307834362c307834392c307834362c307836362c307836392c30783838302c3078333333302c307836362c307836362c,
  0x20202020307836632c307834362c307834362c307834632c307834362c307836362c307836632c30783863302c312c3078323232302c307837332c307837342c307835332c307835342c307835332c307837342c,
  0x202020203078666230362c30783863302c312c3078323232302c307837332c307837342c307835332c307835342c307835332c307837342c3078666230352c30783838302c3078323232302c30783537342c30783537362c30783534342c,
  0x2020202030783534362c30783534342c30783537362c30783838302c3078323232302c30783537342c30783536352c30783534342c30783533352c30783534342c30783536352c30783838302c3078323232302c30783537342c30783536622c30783534342c,
  0x2020202030783533622c30783534342c30783536622c30783838302c3078323232302c30783537652c30783537362c30783534652c30783534362c30783534652c30783537362c30783838302c3078323232302c30783537342c30783536642c30783534342c,
  0x2020202030783533642c30783534342c3078353664]

/-- UnicodeData/CasePropsData.py:891-893 the lines. -/
def caseText7 : List Nat :=
 [0x5d,
  0x0,
  0x75636173655f70726f70735f756e666f6c64203d205b]

/-- UnicodeData/CasePropsData.py:894-917 the lines. -/
def caseText8 : List Nat :=
 [0x20202020307834392c352c332c302c302c307836312c30783262652c302c3078316539612c302c307836362c307836362c302c3078666230302c302c307836362c,
  0x20202020307836362c307836392c3078666230332c302c307836362c307836362c307836632c3078666230342c302c307836362c307836392c302c3078666230312c302c307836362c307836632c,
  0x20202020302c3078666230322c302c307836382c30783333312c302c3078316539362c302c307836392c30783330372c302c30783133302c302c307836612c30783330632c302c,
  0x2020202030783166302c302c307837332c307837332c302c307864662c3078316539652c307837332c307837342c302c3078666230352c3078666230362c307837342c30783330382c302c3078316539372c,
  0x20202020302c307837372c30783330612c302c3078316539382c302c307837392c30783330612c302c3078316539392c302c30783262632c307836652c302c30783134392c302c,
  0x2020202030783361632c30783362392c302c3078316662342c302c30783361652c30783362392c302c3078316663342c302c30783362312c30783334322c302c3078316662362c302c30783362312c,
  0x2020202030783334322c30783362392c3078316662372c302c30783362312c30783362392c302c3078316662332c3078316662632c30783362372c30783334322c302c3078316663362c302c30783362372c30783334322c,
  0x2020202030783362392c3078316663372c302c30783362372c30783362392c302c3078316663332c3078316663632c30783362392c30783330382c30783330302c3078316664322c302c30783362392c30783330382c30783330312c,
  0x2020202030783339302c3078316664332c30783362392c30783330382c30783334322c3078316664372c302c30783362392c30783334322c302c3078316664362c302c30783363312c30783331332c302c3078316665342c,
  0x20202020302c30783363352c30783330382c30783330302c3078316665322c302c30783363352c30783330382c30783330312c30783362302c3078316665332c30783363352c30783330382c30783334322c3078316665372c302c,
  0x2020202030783363352c30783331332c302c3078316635302c302c30783363352c30783331332c30783330302c3078316635322c302c30783363352c30783331332c30783330312c3078316635342c302c30783363352c,
  0x2020202030783331332c30783334322c3078316635362c302c30783363352c30783334322c302c3078316665362c302c30783363392c30783334322c302c3078316666362c302c30783363392c30783334322c,
  0x2020202030783362392c3078316666372c302c30783363392c30783362392c302c3078316666332c3078316666632c30783363652c30783362392c302c3078316666342c302c30783536352c30783538322c302c,
  0x2020202030783538372c302c30783537342c30783536352c302c3078666231342c302c30783537342c30783536622c302c3078666231352c302c30783537342c30783536642c302c3078666231372c,
  0x20202020302c30783537342c30783537362c302c3078666231332c302c30783537652c30783537362c302c3078666231362c302c3078316630302c30783362392c302c3078316638302c3078316638382c,
  0x202020203078316630312c30783362392c302c3078316638312c3078316638392c3078316630322c30783362392c302c3078316638322c3078316638612c3078316630332c30783362392c302c3078316638332c3078316638622c3078316630342c,
  0x2020202030783362392c302c3078316638342c3078316638632c3078316630352c30783362392c302c3078316638352c3078316638642c3078316630362c30783362392c302c3078316638362c3078316638652c3078316630372c30783362392c,
  0x20202020302c3078316638372c3078316638662c3078316632302c30783362392c302c3078316639302c3078316639382c3078316632312c30783362392c302c3078316639312c3078316639392c3078316632322c30783362392c302c,
  0x202020203078316639322c3078316639612c3078316632332c30783362392c302c3078316639332c3078316639622c3078316632342c30783362392c302c3078316639342c3078316639632c3078316632352c30783362392c302c3078316639352c,
  0x202020203078316639642c3078316632362c30783362392c302c3078316639362c3078316639652c3078316632372c30783362392c302c3078316639372c3078316639662c3078316636302c30783362392c302c3078316661302c3078316661382c,
  0x202020203078316636312c30783362392c302c3078316661312c3078316661392c3078316636322c30783362392c302c3078316661322c3078316661612c3078316636332c30783362392c302c3078316661332c3078316661622c3078316636342c,
  0x2020202030783362392c302c3078316661342c3078316661632c3078316636352c30783362392c302c3078316661352c3078316661642c3078316636362c30783362392c302c3078316661362c3078316661652c3078316636372c30783362392c,
  0x20202020302c3078316661372c3078316661662c3078316637302c30783362392c302c3078316662322c302c3078316637342c30783362392c302c3078316663322c302c3078316637632c30783362392c302c,
  0x202020203078316666322c30]

/-- UnicodeData/CasePropsData.py:918-925 the lines. -/
def caseText9 : List Nat :=
 [0x5d,
  0x0,
  0x75636173655f70726f70735f747269655f696e6465785f6c656e677468203d2033323838,
  0x75636173655f70726f70735f747269655f696e6465785f325f6e756c6c5f6f6666736574203d203078313838,
  0x75636173655f70726f70735f747269655f646174615f6e756c6c5f6f6666736574203d203078643534,
  0x75636173655f70726f70735f747269655f686967685f7374617274203d2030786530383030,
  0x75636173655f70726f70735f747269655f686967685f76616c75655f696e646578203d20307833303430,
  0x0]

/-- UnicodeData/CasePropsData.py:1-925 all lines. -/
def caseText : List Nat :=
 caseText0 ++ (caseText1 ++ (caseText2 ++ (caseText3 ++ (caseText4 ++ (caseText5 ++ (caseText6 ++ (caseText7 ++ (caseText8 ++ (caseText9)))))))))

/-- UnicodeData/CharPropsData.py:1-7 the lines. -/
def charText0 : List Nat :=
 [0x2222222f,
  0x4368617250726f7073446174612e70792c206261736564206f6e2075636861725f70726f70735f646174612e682066726f6d20494355,
  0x0,
  0x47656e657261746564206279204d6f64756c654275696c6465722e7079206f6e204175677573742032362c20323032312061742031313a32373a313320414d20485354,
  0x222222,
  0x0,
  0x70726f7073547269655f696e646578203d205b]

/-- UnicodeData/CharPropsData.py:8-263 the lines. -/
def charText1 : List Nat :=
 [0x2020202030783436642c30783437352c30783437642c30783438352c30783439642c30783461352c30783461642c30783462352c30783462642c30783463352c30783463622c30783464332c30783464622c30783465332c30783465622c30783466332c,
  0x2020202030783466392c30783530312c30783530392c30783531312c30783531342c30783531632c30783532342c30783532632c30783533342c30783533632c30783533382c30783534302c30783534382c30783535302c30783535352c30783535642c,
  0x2020202030783536352c30783536642c30783537312c30783537392c30783538312c30783538392c30783539312c30783539392c30783539352c30783539642c30783561322c30783561612c30783562302c30783562382c30783563302c30783563382c,
  0x2020202030783564302c30783564382c30783565302c30783565382c30783565642c30783566352c30783566382c30783630302c30783630382c30783631302c30783631362c30783631652c30783631642c30783632352c30783632642c30783633352c,
  0x2020202030783634352c30783633642c30783634642c30783635352c30783438642c30783636352c30783636622c30783635642c30783637622c30783637642c30783638352c30783637332c30783639352c30783639622c30783661332c30783638642c,
  0x2020202030783662332c30783662392c30783663312c30783661622c30783664312c30783664372c30783664662c30783663392c30783665662c30783666352c30783666642c30783665372c30783730642c30783731352c30783731642c30783730352c,
  0x2020202030783732642c30783733332c30783733622c30783732352c30783734622c30783735312c30783735392c30783734332c30783736392c30783736652c30783737362c30783736312c30783738362c30783738642c30783739352c30783737652c,
  0x2020202030783631392c30783739642c30783761352c30783438642c30783761642c30783762342c30783762632c30783438642c30783763342c30783763632c30783764342c30783764392c30783765312c30783765382c30783766302c30783438642c,
  0x2020202030783564382c30783766382c30783830302c30783830382c30783831302c30783536352c30783832302c30783831382c30783564382c30783564382c30783564382c30783564382c30783564382c30783564382c30783564382c30783564382c,
  0x2020202030783564382c30783564382c30783832382c30783564382c30783833302c30783833342c30783833632c30783564382c30783834322c30783564382c30783834382c30783835302c30783835382c30783536352c30783536352c30783836302c,
  0x2020202030783836382c30783564382c30783564382c30783564382c30783564382c30783564382c30783564382c30783564382c30783564382c30783564382c30783564382c30783564382c30783564382c30783564382c30783564382c30783564382c,
  0x2020202030783564382c30783564382c30783564382c30783836642c30783837352c30783564382c30783564382c30783837642c30783838352c30783838642c30783839352c30783839642c30783564382c30783861352c30783861642c30783862352c,
  0x2020202030783863352c30783564382c30783863642c30783863662c30783864372c30783862642c30783564382c30783864612c30783865652c30783865322c30783865612c30783866362c30783564382c30783866652c30783930342c30783930632c,
  0x2020202030783931342c30783564382c30783932342c30783932632c30783933342c30783931632c30783934342c30783438642c30783934632c30783934662c30783935372c30783933632c30783936372c30783935662c30783564382c30783936652c,
  0x2020202030783564382c30783937642c30783937362c30783938352c30783938642c30783939312c30783939392c30783961312c30783530642c30783961392c30783961632c30783962322c30783962392c30783961632c30783533342c30783963312c,
  0x2020202030783462642c30783462642c30783462642c30783462642c30783963392c30783462642c30783462642c30783462642c30783964392c30783965312c30783965392c30783966312c30783966392c30783966642c30786130352c30783964312c,
  0x2020202030786131642c30786132352c30786130642c30786131352c30786132642c30786133352c30786133642c30786134352c30786135642c30786134642c30786135352c30786136352c30786136642c30786137632c30786138312c30786137342c,
  0x2020202030786138392c30786138392c30786138392c30786138392c30786138392c30786138392c30786138392c30786138392c30786139312c30786139392c30783930632c30786139632c30786161342c30786161622c30786162302c30786162382c,
  0x2020202030783930632c30786162662c30786162652c30786163662c30786164322c30783930632c30783930632c30786163372c30783930632c30783930632c30783930632c30783930632c30783930632c30786165312c30786165392c30786164392c,
  0x2020202030783930632c30783930632c30783930632c30786165652c30783930632c30783930632c30783930632c30783930632c30783930632c30783930632c30783930632c30786166342c30786166632c30783930632c30786230342c30786230622c,
  0x2020202030783930632c30783930632c30783930632c30783930632c30783930632c30783930632c30783930632c30783930632c30786138392c30786138392c30786138392c30786138392c30786231332c30786138392c30786231612c30786232312c,
  0x2020202030786138392c30786138392c30786138392c30786138392c30786138392c30786138392c30786138392c30786138392c30783930632c30786232392c30786233302c30786233342c30786233612c30783930632c30783930632c30783930632c,
  0x2020202030783536352c30786234612c30786234322c30786235322c30783462642c30783462642c30783462642c30786235612c30783530642c30786236322c30783564382c30786236382c30786237382c30786237302c30786237302c30783533342c,
  0x2020202030786238302c30786238382c30786239302c30783438642c30786239382c30783930632c30783930632c30786239662c30783930632c30783930632c30783930632c30783930632c30783930632c30783930632c30786261372c30786261642c,
  0x2020202030786262642c30786262352c30783631392c30783564382c30786263352c30783836382c30783564382c30786263642c30786264352c30786264392c30783564382c30783564382c30786264652c30783564382c30783930632c30786265352c,
  0x2020202030786162392c30786265642c30786266332c30783930632c30786265642c30786266622c30783930632c30783930632c30783930632c30783930632c30783930632c30783930632c30783930632c30783930632c30783930632c30783930632c,
  0x2020202030786330332c30783564382c30783564382c30783564382c30786330622c30783564382c30783564382c30783564382c30783564382c30783564382c30783564382c30783564382c30783564382c30783564382c30783564382c30783564382c,
  0x2020202030783564382c30783564382c30783564382c30783564382c30783564382c30783564382c30783564382c30783564382c30783564382c30783564382c30783564382c30783564382c30783564382c30783564382c30783564382c30783564382c,
  0x2020202030783564382c30786331312c30783564382c30783564382c30783564382c30783564382c30783564382c30783564382c30783564382c30783564382c30783564382c30783564382c30783564382c30783564382c30783564382c30783564382c,
  0x2020202030783564382c30783564382c30783564382c30783564382c30783564382c30783564382c30783564382c30783564382c30783564382c30783564382c30786331362c30783564382c30783564382c30783564382c30783564382c30783564382c,
  0x2020202030783564382c30783564382c30783564382c30783564382c30783564382c30783564382c30783564382c30783564382c30783564382c30783564382c30783564382c30783564382c30783564382c30783564382c30783564382c30783564382c,
  0x2020202030783564382c30783564382c30783564382c30783564382c30783564382c30783564382c30783564382c30783564382c30783564382c30783564382c30783564382c30783564382c30783564382c30783564382c30783564382c30783564382c,
  0x2020202030783564382c30783564382c30783564382c30783564382c30783564382c30783564382c30783564382c30783564382c30783564382c30783564382c30783564382c30783564382c30783564382c30783564382c30783564382c30783564382c,
  0x2020202030783564382c30783564382c30783564382c30783564382c30783564382c30783564382c30783564382c30783564382c30783564382c30783564382c30783564382c30783564382c30783564382c30783564382c30783564382c30783564382c,
  0x2020202030783564382c30783564382c30783564382c30783564382c30783564382c30783564382c30783564382c30783564382c30783564382c30783564382c30783564382c30783564382c30783564382c30783564382c30783564382c30783564382c,
  0x2020202030783564382c30783564382c30783564382c30783564382c30783564382c30783564382c30783564382c30783564382c30783564382c30783564382c30783564382c30783564382c30783564382c30783564382c30783564382c30783564382c,
  0x2020202030783564382c30783564382c30783564382c30783564382c30783564382c30783564382c30783564382c30783564382c30783564382c30783564382c30783564382c30783564382c30783564382c30783564382c30783564382c30783564382c,
  0x2020202030783564382c30783564382c30783564382c30783564382c30783564382c30783564382c30783564382c30783564382c30783564382c30783564382c30783564382c30783564382c30783564382c30783564382c30783564382c30783564382c,
  0x2020202030783564382c30783564382c30783564382c30783564382c30783564382c30783564382c30783564382c30783564382c30783564382c30783564382c30783564382c30783564382c30783564382c30783564382c30783930632c30783930632c,
  0x2020202030786331652c30783564382c30786332312c30783564382c30786332392c30786332662c30786333372c30786333662c30786334342c30783564382c30783564382c30786334382c30783564382c30783564382c30783564382c30783564382c,
  0x2020202030783564382c30783564382c30783564382c30783564382c30783564382c30783564382c30783564382c30783564382c30786334662c30783564382c30786335362c30786335632c30783564382c30783564382c30783564382c30783564382c,
  0x2020202030783564382c30783564382c30783564382c30783564382c30783564382c30783564382c30783564382c30783564382c30783564382c30783564382c30786336342c30783564382c30783564382c30783564382c30786336632c30783564382c,
  0x2020202030783564382c30783564382c30783564382c30783564382c30783564382c30783564382c30783564382c30783564382c30783564382c30783564382c30783564382c30783564382c30783564382c30783564382c30783564382c30783564382c,
  0x2020202030783564382c30783564382c30783564382c30783564382c30783564382c30783564382c30786336652c30783564382c30783564382c30783564382c30783564382c30783564382c30783564382c30783564382c30783564382c30783564382c,
  0x2020202030783564382c30783564382c30783564382c30783564382c30783564382c30783564382c30783564382c30786337352c30783564382c30783564382c30783564382c30783564382c30783564382c30783564382c30783564382c30783564382c,
  0x2020202030783564382c30783564382c30783564382c30783564382c30783564382c30783564382c30783564382c30783564382c30783564382c30783564382c30783564382c30783564382c30783564382c30783564382c30783564382c30783564382c,
  0x2020202030783564382c30783564382c30783564382c30783564382c30783564382c30783564382c30783564382c30783564382c30783564382c30783564382c30783564382c30783564382c30783564382c30783564382c30783564382c30783564382c,
  0x2020202030783564382c30783564382c30783564382c30786337632c30783564382c30783564382c30783564382c30786338332c30786338622c30783564382c30783564382c30783564382c30783564382c30783564382c30783564382c30783564382c,
  0x2020202030783564382c30783564382c30783564382c30783564382c30783564382c30783564382c30783564382c30783564382c30783564382c30783564382c30783564382c30783564382c30783564382c30783564382c30783564382c30783564382c,
  0x2020202030783564382c30783564382c30783564382c30783564382c30783564382c30783564382c30783564382c30786339302c30783564382c30783564382c30786339382c30783564382c30783564382c30783564382c30783564382c30783564382c,
  0x2020202030783564382c30783564382c30783564382c30783564382c30783564382c30783564382c30783564382c30783564382c30783564382c30783564382c30783564382c30783564382c30783564382c30783564382c30783564382c30783564382c,
  0x2020202030783564382c30783564382c30783564382c30783564382c30783564382c30783564382c30783564382c30783564382c30783564382c30783564382c30783564382c30783564382c30783564382c30783564382c30786339632c30783564382c,
  0x2020202030783564382c30783564382c30783564382c30783564382c30783564382c30783564382c30783564382c30783564382c30783564382c30783564382c30783564382c30783564382c30783564382c30783564382c30783564382c30783564382c,
  0x2020202030783564382c30783564382c30783564382c30783564382c30783564382c30783564382c30783564382c30783564382c30783564382c30783564382c30783564382c30783564382c30783564382c30783564382c30783564382c30783564382c,
  0x2020202030783564382c30783564382c30783564382c30783564382c30783564382c30783564382c30783564382c30783564382c30783564382c30783564382c30783564382c30783564382c30783564382c30783564382c30783564382c30783564382c,
  0x2020202030783564382c30783564382c30783564382c30783564382c30783564382c30783564382c30783564382c30783564382c30786339662c30783564382c30783564382c30783564382c30783564382c30783564382c30783564382c30783564382c,
  0x2020202030783564382c30783564382c30783564382c30783564382c30783564382c30783564382c30783564382c30783564382c30783564382c30783564382c30783564382c30783564382c30783564382c30783564382c30783564382c30783564382c,
  0x2020202030783564382c30783564382c30783564382c30783564382c30783564382c30783564382c30783564382c30783564382c30783564382c30783564382c30783564382c30783564382c30786361322c30783564382c30783564382c30783564382c,
  0x2020202030783564382c30783564382c30783564382c30783564382c30783564382c30783564382c30783564382c30783564382c30783564382c30783564382c30783564382c30783564382c30783564382c30783564382c30783564382c30783564382c,
  0x2020202030783564382c30783564382c30783564382c30786361382c30783564382c30783564382c30783564382c30783564382c30783564382c30783564382c30783564382c30783564382c30783564382c30783564382c30783564382c30783564382c,
  0x2020202030783564382c30783564382c30783564382c30783564382c30783564382c30783564382c30783564382c30783564382c30783564382c30783564382c30783564382c30783564382c30783564382c30783564382c30783564382c30783564382c,
  0x2020202030783564382c30783564382c30783564382c30783564382c30783564382c30783564382c30783564382c30783564382c30783564382c30783564382c30783564382c30783564382c30783564382c30783564382c30783564382c30783564382c,
  0x2020202030783564382c30783564382c30783564382c30783564382c30783564382c30783564382c30783564382c30783564382c30783564382c30783564382c30783564382c30783564382c30783564382c30783564382c30783564382c30783564382c,
  0x2020202030783564382c30783564382c30783564382c30783564382c30783564382c30783564382c30783564382c30783564382c30783564382c30783564382c30783564382c30783564382c30783564382c30783564382c30783564382c30783564382c,
  0x2020202030783564382c30783564382c30783564382c30783564382c30786362302c30783564382c30783564382c30783564382c30783564382c30783564382c30783564382c30783564382c30783564382c30783564382c30783564382c30783564382c,
  0x2020202030783564382c30783564382c30783564382c30783564382c30783564382c30783564382c30783564382c30783564382c30783564382c30783564382c30783564382c30783564382c30783564382c30783564382c30783564382c30783564382c,
  0x2020202030783564382c30786362352c30783564382c30783564382c30783564382c30783564382c30783564382c30783564382c30783564382c30783564382c30783564382c30783564382c30783564382c30783564382c30783564382c30783564382c,
  0x2020202030783564382c30783564382c30783564382c30783564382c30783564382c30783564382c30783564382c30783564382c30783564382c30783564382c30783564382c30783564382c30783564382c30783564382c30783564382c30783564382c,
  0x2020202030783564382c30783564382c30783564382c30783564382c30783564382c30783564382c30783564382c30783564382c30783564382c30783564382c30783564382c30783564382c30783564382c30783564382c30783564382c30783564382c,
  0x2020202030783564382c30783564382c30783564382c30783564382c30783564382c30783564382c30783564382c30783564382c30783564382c30783564382c30783564382c30783564382c30783564382c30783564382c30783564382c30783564382c,
  0x2020202030783564382c30783564382c30783564382c30783564382c30783564382c30786362612c30783564382c30783564382c30783564382c30786362662c30783564382c30783564382c30783564382c30783564382c30783564382c30783564382c,
  0x2020202030783564382c30783564382c30783564382c30783564382c30783564382c30783564382c30783564382c30783564382c30783564382c30783564382c30783564382c30783564382c30783564382c30783564382c30783564382c30783564382c,
  0x2020202030783564382c30783564382c30783564382c30783564382c30783564382c30783564382c30783564382c30783564382c30783564382c30783564382c30783564382c30783564382c30783564382c30783564382c30783564382c30783564382c,
  0x2020202030783564382c30783564382c30783564382c30783564382c30783564382c30783564382c30783564382c30783564382c30783564382c30783564382c30783564382c30783564382c30783564382c30783564382c30783564382c30783564382c,
  0x2020202030783564382c30783564382c30783564382c30783564382c30783564382c30783564382c30783564382c30783564382c30783564382c30783564382c30783564382c30783564382c30783564382c30783564382c30783564382c30783564382c,
  0x2020202030783564382c30786363372c30786363652c30786364322c30783564382c30783564382c30783564382c30786364392c30783564382c30783564382c30783564382c30783564382c30783564382c30783564382c30783564382c30783564382c,
  0x2020202030783564382c30783564382c30783564382c30783564382c30783564382c30783564382c30783564382c30783564382c30783564382c30783564382c30783564382c30783564382c30783564382c30783564382c30783564382c30783564382c,
  0x2020202030783564382c30783564382c30783564382c30783564382c30783564382c30783564382c30783564382c30783564382c30783564382c30783564382c30783564382c30783564382c30783564382c30783564382c30783564382c30783564382c,
  0x2020202030783564382c30783564382c30783564382c30783564382c30783564382c30783564382c30783564382c30783564382c30783564382c30783564382c30783564382c30783564382c30783564382c30783564382c30783564382c30783564382c,
  0x2020202030783564382c30783564382c30783564382c30783564382c30783564382c30783564382c30783564382c30783564382c30783564382c30783564382c30783564382c30783564382c30783564382c30783564382c30783564382c30783863652c,
  0x2020202030786365372c30783564382c30783564382c30783564382c30783564382c30783564382c30783564382c30783564382c30783564382c30783564382c30783564382c30783564382c30783564382c30783564382c30783564382c30783564382c,
  0x2020202030783564382c30783564382c30783564382c30783564382c30783564382c30783564382c30783564382c30783564382c30783564382c30783564382c30783564382c30783564382c30783564382c30783564382c30783564382c30783564382c,
  0x2020202030783564382c30783564382c30783564382c30783564382c30786364662c30783930632c30786365662c30783938352c30783564382c30783564382c30783564382c30783564382c30783564382c30783564382c30783564382c30783564382c,
  0x2020202030786366342c30786366632c30783462642c30786430632c30786430342c30783564382c30783564382c30786431342c30786431632c30786432632c30783462642c30786433312c30786433392c30786433662c30786434372c30786432342c,
  0x2020202030786434662c30786435372c30783564382c30786435662c30786436662c30786437322c30786436372c30786437612c30783632642c30786438322c30786438392c30783863652c30783637622c30786439392c30786439312c30786461312c,
  0x2020202030783564382c30786461392c30786462312c30786462392c30783564382c30786463312c30786463392c30786464312c30786464392c30786465312c30786465352c30786465642c30783530642c30783530642c30783564382c30786466352c,
  0x2020202030783564382c30783564382c30783564382c30783564382c30783564382c30783564382c30783564382c30783564382c30783564382c30783564382c30783564382c30783564382c30783564382c30783564382c30783564382c30783564382c,
  0x2020202030783564382c30783564382c30783564382c30783564382c30783564382c30783564382c30783564382c30783564382c30783564382c30783564382c30783564382c30783564382c30783564382c30783564382c30783564382c30783564382c,
  0x2020202030783564382c30783564382c30783564382c30783564382c30783564382c30783564382c30783564382c30783564382c30783564382c30783564382c30783564382c30783564382c30783564382c30783564382c30783564382c30783564382c,
  0x2020202030783564382c30783564382c30783564382c30783564382c30783564382c30783564382c30783564382c30783564382c30783564382c30783564382c30783564382c30783564382c30783564382c30783564382c30783564382c30783564382c,
  0x2020202030783564382c30783564382c30783564382c30783564382c30783564382c30783564382c30783564382c30783564382c30783564382c30783564382c30783564382c30783564382c30783564382c30783564382c30783564382c30783564382c,
  0x2020202030783564382c30783564382c30783564382c30783564382c30783564382c30783564382c30783564382c30783564382c30783564382c30783564382c30783564382c30783564382c30783564382c30783564382c30783564382c30783564382c,
  0x2020202030783564382c30783564382c30783564382c30783564382c30783564382c30783564382c30783564382c30783564382c30783564382c30783564382c30783564382c30783564382c30783564382c30783564382c30783564382c30783564382c,
  0x2020202030783564382c30783564382c30783564382c30783564382c30783564382c30783564382c30783564382c30783564382c30783564382c30783564382c30783564382c30783564382c30783564382c30783564382c30783564382c30783564382c,
  0x2020202030783564382c30783564382c30783564382c30783564382c30783564382c30783564382c30783564382c30783564382c30783564382c30783564382c30783564382c30783564382c30783564382c30783564382c30783564382c30783564382c,
  0x2020202030783564382c30783564382c30783564382c30783564382c30783564382c30783564382c30783564382c30783564382c30783564382c30783564382c30783564382c30783564382c30783564382c30783564382c30783564382c30783564382c,
  0x2020202030783564382c30783564382c30783564382c30783564382c30783564382c30783564382c30783564382c30783564382c30783564382c30783564382c30783564382c30783564382c30783564382c30783564382c30783564382c30783564382c,
  0x2020202030783564382c30783564382c30783564382c30783564382c30783564382c30783564382c30783564382c30783564382c30783564382c30783564382c30783564382c30783564382c30783564382c30783564382c30783564382c30783564382c,
  0x2020202030783564382c30783564382c30783564382c30783564382c30783564382c30783564382c30783564382c30783564382c30783564382c30783564382c30783564382c30783564382c30783564382c30783564382c30783564382c30783564382c,
  0x2020202030783564382c30783564382c30783564382c30783564382c30783564382c30783564382c30783564382c30783564382c30783564382c30783564382c30783564382c30783564382c30783564382c30783564382c30783564382c30783564382c,
  0x2020202030783564382c30783564382c30783564382c30783564382c30783564382c30783564382c30783564382c30783564382c30783564382c30783564382c30783564382c30783564382c30783564382c30783564382c30783564382c30783564382c,
  0x2020202030783564382c30783564382c30783564382c30783564382c30783564382c30783564382c30783564382c30783564382c30783564382c30783564382c30783564382c30783564382c30783564382c30783564382c30783564382c30783564382c,
  0x2020202030783564382c30783564382c30783564382c30783564382c30783564382c30783564382c30783564382c30783564382c30783564382c30783564382c30783564382c30783564382c30783564382c30783564382c30783564382c30783564382c,
  0x2020202030783564382c30783564382c30783564382c30783564382c30783564382c30783564382c30783564382c30783564382c30783564382c30783564382c30783564382c30783564382c30783564382c30783564382c30783564382c30783564382c,
  0x2020202030783564382c30783564382c30783564382c30783564382c30783564382c30783564382c30783564382c30783564382c30783564382c30783564382c30783564382c30783564382c30783564382c30783564382c30783564382c30783564382c,
  0x2020202030783564382c30783564382c30783564382c30783564382c30783564382c30783564382c30783564382c30783564382c30783564382c30783564382c30783564382c30783564382c30783564382c30783564382c30783564382c30783564382c,
  0x2020202030783564382c30783564382c30783564382c30783564382c30783564382c30783564382c30783564382c30783564382c30783564382c30783564382c30783564382c30783564382c30783564382c30783564382c30783564382c30783564382c,
  0x2020202030783564382c30783564382c30783564382c30783564382c30783564382c30783564382c30783564382c30783564382c30783564382c30783564382c30783564382c30783564382c30783564382c30786466642c30786530392c30786530312c,
  0x2020202030783438642c30783438642c30783438642c30783438642c30783438642c30783438642c30783438642c30783438642c30783438642c30783438642c30783438642c30783438642c30783438642c30783438642c30783438642c30783438642c,
  0x2020202030783438642c30783438642c30783438642c30783438642c30783438642c30783438642c30783438642c30783438642c30783438642c30783438642c30783438642c30783438642c30783438642c30783438642c30783438642c30783438642c,
  0x2020202030786531312c30786531312c30786531312c30786531312c30786531312c30786531312c30786531312c30786531312c30786531312c30786531312c30786531312c30786531312c30786531312c30786531312c30786531312c30786531312c,
  0x2020202030786531312c30786531312c30786531312c30786531312c30786531312c30786531312c30786531312c30786531312c30786531312c30786531312c30786531312c30786531312c30786531312c30786531312c30786531312c30786531312c,
  0x2020202030786531392c30786531392c30786531392c30786531392c30786531392c30786531392c30786531392c30786531392c30786531392c30786531392c30786531392c30786531392c30786531392c30786531392c30786531392c30786531392c,
  0x2020202030786531392c30786531392c30786531392c30786531392c30786531392c30786531392c30786531392c30786531392c30786531392c30786531392c30786531392c30786531392c30786531392c30786531392c30786531392c30786531392c,
  0x2020202030786531392c30786531392c30786531392c30786531392c30786531392c30786531392c30786531392c30786531392c30786531392c30786531392c30786531392c30786531392c30786531392c30786531392c30786531392c30786531392c,
  0x2020202030786531392c30786531392c30786531392c30786531392c30786531392c30786531392c30786531392c30786531392c30786531392c30786531392c30786531392c30786531392c30786531392c30786531392c30786531392c30786531392c,
  0x2020202030786531392c30786531392c30786531392c30786531392c30786531392c30786531392c30786531392c30786531392c30786531392c30786531392c30786531392c30786531392c30786531392c30786531392c30786531392c30786531392c,
  0x2020202030786531392c30786531392c30786531392c30786531392c30786531392c30786531392c30786531392c30786531392c30786531392c30786531392c30786531392c30786531392c30786531392c30786531392c30786531392c30786531392c,
  0x2020202030786531392c30786531392c30786531392c30786531392c30786531392c30786531392c30786531392c30786531392c30786531392c30786531392c30786531392c30786531392c30786531392c30786531392c30786531392c30786531392c,
  0x2020202030786531392c30786531392c30786531392c30786531392c30786531392c30786531392c30786531392c30786531392c30786531392c30786531392c30786531392c30786531392c30786531392c30786531392c30786531392c30786531392c,
  0x2020202030786531392c30786531392c30786531392c30786531392c30786531392c30786531392c30786531392c30786531392c30786531392c30786531392c30786531392c30786531392c30786531392c30786531392c30786531392c30786531392c,
  0x2020202030786531392c30786531392c30786531392c30786531392c30786531392c30786531392c30786531392c30786531392c30786531392c30786531392c30786531392c30786531392c30786531392c30786531392c30786531392c30786531392c,
  0x2020202030786531392c30786531392c30786531392c30786531392c30786531392c30786531392c30786531392c30786531392c30786531392c30786531392c30786531392c30786531392c30786531392c30786531392c30786531392c30786531392c,
  0x2020202030786531392c30786531392c30786531392c30786531392c30786531392c30786531392c30786531392c30786531392c30786531392c30786531392c30786531392c30786531392c30786531392c30786531392c30786531392c30786531392c,
  0x2020202030786531392c30786531392c30786531392c30786531392c30786531392c30786531392c30786531392c30786531392c30783564382c30783564382c30783564382c30786532312c30783564382c30786364612c30786532382c30786532642c,
  0x2020202030783564382c30783564382c30783564382c30786533352c30783564382c30783564382c30783864392c30783438642c30786534622c30786533622c30786534332c30783564382c30783564382c30786535332c30786535622c30783564382c,
  0x2020202030783564382c30783564382c30783564382c30783564382c30783564382c30783564382c30783564382c30783564382c30783564382c30786536302c30786536382c30783564382c30786536632c30783564382c30786537322c30786537362c,
  0x2020202030786537652c30786538362c30786538642c30786539352c30783564382c30783564382c30783564382c30786539622c30786562332c30783437642c30786562622c30786563332c30786563382c30783865652c30786561332c30786561622c,
  0x2020202030786531312c30786531312c30786531312c30786531312c30786531312c30786531312c30786531312c30786531312c30786531312c30786531312c30786531312c30786531312c30786531312c30786531312c30786531312c30786531312c,
  0x2020202030786531312c30786531312c30786531312c30786531312c30786531312c30786531312c30786531312c30786531312c30786531312c30786531312c30786531312c30786531312c30786531312c30786531312c30786531312c30786531312c,
  0x202020203078313233342c3078313233342c3078313237342c3078313262342c3078313266342c3078313332632c3078313336632c3078313361632c3078313365342c3078313432342c3078313435302c3078313439302c3078313464302c3078313465302c3078313532302c3078313535342c,
  0x202020203078313539342c3078313563342c3078313630342c3078313634342c3078313635342c3078313638382c3078313663302c3078313730302c3078313734302c3078313738302c3078313762342c3078313765302c3078313832302c3078313835382c3078313837342c3078313862342c,
  0x2020202030786138302c30786163302c30786230302c30786234302c30786238302c30786134302c30786263302c30786134302c30786265322c30786134302c30786134302c30786134302c30786134302c30786332322c30783164622c30783164622c,
  0x2020202030786336322c30786361322c30786134302c30786134302c30786134302c30786134302c30786365322c30786430322c30786134302c30786134302c30786434322c30786438322c30786463322c30786530322c30786534322c30786538322c,
  0x2020202030786563322c30786566392c30783164622c30783164622c30786631642c30786635312c30783164622c30786637392c30783164622c30783164622c30783164622c30783164622c30786661362c30783164622c30783164622c30783164622c,
  0x2020202030783164622c30783164622c30783164622c30783164622c30786662612c30783164622c30786666322c3078313033322c30783164622c3078313033642c30783164622c30783164622c30783164622c3078313037332c30786134302c3078313062332c,
  0x2020202030783164622c30783164622c3078313066332c30786134302c30786134302c30786134302c30786134302c30786134302c30786134302c30786134302c30786134302c30786134302c30786134302c30786134302c30786134302c30786134302c,
  0x2020202030786134302c30786134302c30786134302c30786134302c30786134302c30786134302c30786134302c30786134302c30786134302c30786134302c30786134302c30786134302c30786134302c30786134302c30786134302c30786134302c,
  0x2020202030786134302c30786134302c30786134302c30786134302c30786134302c30786134302c30786134302c30786134302c30786134302c30786134302c30786134302c30786134302c30786134302c30786134302c30786134302c30786134302c,
  0x2020202030786134302c30786134302c30786134302c30786134302c30786134302c30786134302c30786134302c30786134302c30786134302c30786134302c30786134302c30786134302c30786134302c30786134302c30786134302c30786134302c,
  0x2020202030786134302c30786134302c30786134302c30786134302c30786134302c30786134302c30786134302c30786134302c30786134302c30786134302c30786134302c30786134302c30786134302c30786134302c30786134302c30786134302c,
  0x2020202030786134302c30786134302c30786134302c30786134302c30786134302c30786134302c30786134302c30786134302c30786134302c30786134302c30786134302c30786134302c30786134302c30786134302c30786134302c30786134302c,
  0x2020202030786134302c30786134302c30786134302c30786134302c30786134302c30786134302c30786134302c30786134302c30786134302c30786134302c30786134302c30786134302c30786134302c30786134302c30786134302c30786134302c,
  0x2020202030786134302c30786134302c30786134302c30786134302c30786134302c30786134302c30786134302c30786134302c30786134302c30786134302c30786134302c30786134302c30786134302c30786134302c30786134302c30786134302c,
  0x2020202030786134302c30786134302c30786134302c30786134302c30786134302c30786134302c30786134302c30786134302c30786134302c30786134302c30786134302c30786134302c30786134302c30786134302c30786134302c30786134302c,
  0x2020202030786134302c30786134302c30786134302c30786134302c30786134302c30786134302c30786134302c30786134302c30786134302c30786134302c30786134302c30786134302c30786134302c30786134302c30786134302c30786134302c,
  0x2020202030786134302c30786134302c30786134302c30786134302c30786134302c30786134302c30786134302c30786134302c30786134302c30786134302c30786134302c30786134302c30786134302c30786134302c30786134302c30786134302c,
  0x2020202030786134302c30786134302c30786134302c30786134302c30786134302c30786134302c30786134302c30786134302c30786134302c30786134302c30786134302c30786134302c30786134302c30786134302c30786134302c30786134302c,
  0x2020202030786134302c30786134302c30786134302c30786134302c30786134302c30786134302c30786134302c30786134302c30786134302c30786134302c30786134302c30786134302c30786134302c30786134302c30786134302c30786134302c,
  0x2020202030786134302c30786134302c30786134302c30786134302c30786134302c30786134302c30786134302c30786134302c30786134302c30786134302c30786134302c30786134302c30786134302c30786134302c30786134302c30786134302c,
  0x2020202030786134302c30786134302c30786134302c30786134302c30786134302c30786134302c30786134302c30786134302c30786134302c30786134302c30786134302c30786134302c30786134302c30786134302c30786134302c30786134302c,
  0x2020202030786134302c30786134302c30786134302c30786134302c30786134302c30786134302c30786134302c30786134302c30786134302c30786134302c30786134302c30786134302c30786134302c30786134302c30786134302c30786134302c,
  0x2020202030786134302c30786134302c30786134302c30786134302c30786134302c30786134302c30786134302c30786134302c30786134302c30786134302c30786134302c30786134302c30786134302c30786134302c30786134302c30786134302c,
  0x2020202030786134302c30786134302c30786134302c30786134302c30786134302c30786134302c30786134302c30786134302c30786134302c30786134302c30786134302c30786134302c30786134302c30786134302c30786134302c30786134302c,
  0x2020202030786134302c30786134302c30786134302c30786134302c30786134302c30786134302c30786134302c30786134302c30786134302c30786134302c30786134302c30786134302c30786134302c30786134302c30786134302c30786134302c,
  0x2020202030786134302c30786134302c30786134302c30786134302c30786134302c30786134302c30786134302c30786134302c30786134302c30786134302c30786134302c30786134302c30786134302c30786134302c30786134302c30786134302c,
  0x2020202030786134302c30786134302c30786134302c30786134302c30786134302c30786134302c30786134302c30786134302c30786134302c30786134302c30786134302c30786134302c30786134302c30786134302c30786134302c30786134302c,
  0x2020202030786134302c30786134302c30786134302c30786134302c30786134302c30786134302c30786134302c30786134302c30786134302c30786134302c30786134302c30786134302c30786134302c30786134302c30786134302c30786134302c,
  0x202020203078313133332c30786134302c30786134302c30786134302c30786134302c30786134302c30786134302c30786134302c30786134302c30786134302c30786134302c30786134302c30786134302c30786134302c30786134302c30786134302c,
  0x2020202030786134302c30786134302c30786134302c30786134302c30786134302c30786134302c30786134302c30786134302c30786134302c30786134302c30786134302c30786134302c30786134302c30786134302c30786134302c30786134302c,
  0x2020202030783730302c30783730302c30783730302c30783730302c30783730302c30783730302c30783730302c30783730302c30783730302c30783730302c30783730302c30783730302c30783730302c30783730302c30783730302c30783730302c,
  0x2020202030783730302c30783730302c30783730302c30783730302c30783730302c30783730302c30783730302c30783730302c30783730302c30783730302c30783730302c30783730302c30783730302c30783730302c30783730302c3078313137332c,
  0x2020202030783730302c30783730302c30783730302c30783730302c30783730302c30783730302c30783730302c30783730302c30783730302c30783730302c30783730302c30783730302c30783730302c30783730302c30783730302c30783730302c,
  0x2020202030783730302c30783730302c30783730302c30783730302c30783730302c30783730302c30783730302c30783730302c30783730302c30783730302c30783730302c30783730302c30783730302c30783730302c30783730302c3078313137332c,
  0x2020202030783438642c30783438642c30783438642c30783438642c30783438642c30783438642c30783438642c30783438642c30783438642c30783438642c30783438642c30783438642c30783438642c30783438642c30783438642c30783438642c,
  0x2020202030783438642c30783438642c30783438642c30783438642c30783438642c30783438642c30783438642c30783438642c30783438642c30783438642c30783438642c30783438642c30783438642c30783438642c30783438642c30783438642c,
  0x2020202030783438642c30783438642c30783438642c30783438642c30783438642c30783438642c30783438642c30783438642c30783438642c30783438642c30783438642c30783438642c30783438642c30783438642c30783438642c30783438642c,
  0x2020202030783438642c30783438642c30783438642c30783438642c30783438642c30783438642c30783438642c30783438642c30783438642c30783438642c30783438642c30783438642c30783438642c30783438642c30783438642c30783438642c,
  0x2020202030786564302c30786564372c30786564662c30783438642c30783564382c30783564382c30783564382c30786565372c30786566372c30786565662c30786630652c30786566662c30786630362c30786631362c30786631612c30786631652c,
  0x2020202030783438642c30783438642c30783438642c30783438642c30783863652c30783564382c30786632362c30786632652c30783564382c30786633362c30786633652c30786634322c30786634612c30783564382c30786635322c30783438642c,
  0x2020202030783536352c30783536662c30786635612c30783564382c30786635652c30786636362c30786637362c30786636652c30783564382c30786637652c30783564382c30786638352c30783438642c30783438642c30783438642c30783438642c,
  0x2020202030783564382c30783564382c30783564382c30783564382c30783564382c30783564382c30783564382c30783564382c30783564382c30786237382c30783864612c30786537322c30783438642c30783438642c30783438642c30783438642c,
  0x2020202030786639352c30786638642c30786639382c30786661302c30783865652c30786661382c30783438642c30786662302c30786662382c30786663302c30783438642c30783438642c30783564382c30786664302c30786664382c30786663382c,
  0x2020202030786665382c30786665662c30786665302c30786666372c30786666662c30783438642c3078313030662c3078313030372c30783564382c3078313031322c3078313031612c3078313032322c3078313032612c3078313033322c30783438642c30783438642c,
  0x2020202030783564382c30783564382c3078313033612c30783438642c30783536352c3078313034322c30783530642c3078313034612c30783564382c3078313035322c30783438642c30783438642c30783438642c30783438642c30783438642c30783438642c,
  0x2020202030783438642c30783438642c30783438642c3078313035612c30783564382c3078313036322c30783438642c30783438642c3078313036612c3078313037322c3078313037392c30783438642c30783438642c30786536382c3078313038312c30786237382c,
  0x202020203078313039312c30783630652c3078313039392c3078313038392c30783936372c3078313061312c3078313061392c3078313061662c3078313063372c3078313062372c3078313062662c3078313063622c30783936372c3078313064622c3078313064332c3078313065332c,
  0x202020203078313066332c3078313065622c30783438642c30783438642c3078313066612c3078313130322c30783633302c3078313130612c3078313131612c3078313132302c3078313132382c3078313131322c30783438642c30783438642c30783438642c30783438642c,
  0x2020202030783564382c3078313133302c3078313133382c3078313134302c30783564382c3078313134382c3078313135302c30783438642c30783438642c30783438642c30783438642c30783438642c30783564382c3078313135382c3078313136302c30783438642c,
  0x2020202030783564382c3078313136382c3078313137302c3078313137382c30783564382c3078313138382c3078313138302c30783438642c30783834382c3078313139302c30783438642c30783438642c30783438642c30783438642c30783438642c30783438642c,
  0x2020202030783564382c3078313139382c30783438642c30783438642c30783438642c30783536352c30783530642c3078313161302c3078313162302c3078313162362c3078313161382c30783438642c30783438642c3078313163362c3078313163612c3078313162652c,
  0x202020203078313165322c3078313164322c3078313164612c30783564382c3078313166322c3078313165612c30783564382c30783863662c30783438642c30783438642c30783438642c30783438642c30783438642c30783438642c30783438642c30783438642c,
  0x202020203078313230382c3078313230642c3078313166612c3078313230322c3078313231642c3078313231352c30783438642c30783438642c3078313232632c3078313233302c3078313232342c3078313234302c3078313233382c3078313138302c30783438642c30783438642c,
  0x2020202030783438642c30783438642c30783438642c30783438642c30783438642c30783438642c30783438642c3078313234342c30783438642c30783438642c30783438642c30783438642c30783438642c3078313234622c3078313235622c3078313235332c,
  0x2020202030783564382c30783564382c30783564382c30783564382c30783564382c30783564382c30783564382c30783564382c30783564382c30783564382c30783564382c30783564382c30783564382c30783564382c30783564382c30783564382c,
  0x2020202030783564382c30783564382c30783564382c30783564382c30783564382c30783564382c30783564382c30783564382c30783564382c30783564382c30783564382c30783564382c30783864392c30783438642c30783438642c30783438642c,
  0x202020203078313236622c3078313237332c3078313237622c3078313236332c30783564382c30783564382c30783564382c30783564382c30783564382c30783564382c3078313238332c30783438642c30783438642c30783438642c30783438642c30783438642c,
  0x2020202030783438642c30783438642c30783438642c30783438642c30783438642c30783438642c30783438642c30783438642c30783438642c30783438642c30783438642c30783438642c30783438642c30783438642c30783438642c30783438642c,
  0x2020202030783564382c30783564382c30783564382c30783564382c30783564382c30783564382c30783564382c30783564382c30783564382c30783564382c30783564382c30783564382c30783564382c30783564382c30783564382c30783564382c,
  0x2020202030783564382c30783564382c30783564382c30783564382c30783564382c30783564382c30783564382c30783564382c30783564382c30783564382c30783564382c30783564382c30783564382c30783564382c30783564382c30783564382c,
  0x2020202030783564382c3078313238622c30783438642c30783438642c30783438642c30783438642c30783438642c30783438642c30783438642c30783438642c30783438642c30783438642c30783438642c30783438642c30783438642c30783438642c,
  0x2020202030783438642c30783438642c30783438642c30783438642c30783438642c30783438642c30783438642c30783438642c30783438642c30783438642c30783438642c30783438642c30783438642c30783438642c30783438642c30783438642c,
  0x2020202030783438642c30783438642c30783564382c30783564382c30783564382c30783564382c30783564382c30783564382c30783564382c30783564382c30783564382c30783564382c30783564382c30783564382c30783564382c30783564382c,
  0x2020202030783564382c30783564382c30783564382c30783564382c3078313239332c30783438642c30783438642c30783438642c30783438642c30783438642c30783438642c30783438642c30783438642c30783438642c30783438642c30783438642c,
  0x2020202030783438642c30783438642c30783564382c30783564382c30783564382c30783564382c30783564382c30783564382c30783564382c30783564382c30783564382c30783564382c30783564382c30783564382c30783564382c30783564382c,
  0x2020202030783564382c30783564382c30783564382c30783863662c30783865652c3078313239622c30783438642c30783438642c30786536382c3078313261332c30783564382c3078313262332c3078313262622c3078313263332c3078313261622c30783438642c,
  0x2020202030783438642c30783438642c30783438642c30783438642c30783438642c30783438642c30783438642c30783438642c30783438642c30783438642c30783438642c30783438642c30783438642c30783438642c30783438642c30783438642c,
  0x2020202030783438642c30783438642c30783438642c30783438642c30783536352c30783530642c3078313263622c30783438642c30783438642c30783438642c30783564382c30783564382c3078313264332c3078313264382c3078313264652c30783438642c,
  0x2020202030783438642c3078313265362c30783564382c30783564382c30783564382c30783564382c30783564382c30783564382c30783564382c30783564382c30783564382c30783564382c30783564382c30783564382c30783564382c30783564382c,
  0x2020202030783564382c30783564382c30783564382c30783564382c30783564382c30783564382c30783564382c30783564382c30783564382c30783564382c30783564382c30783564382c30783564382c30783564382c30783564382c30783564382c,
  0x2020202030783564382c30783564382c30783564382c30783564382c30783564382c30783564382c30783564382c30783564382c30783564382c30783564382c30783564382c30783564382c30783564382c30783564382c30783564382c30783564382c,
  0x2020202030783564382c30783564382c30783564382c30783564382c30783564382c30783564382c30783564382c30783564382c30783564382c30783564382c30783564382c30783564382c30783564382c30783564382c30783564382c30783564382c,
  0x2020202030783564382c3078313265652c30783564382c30783564382c30783564382c30783564382c30783564382c30783564382c30783564382c30783564382c30783564382c30783564382c30783564382c30783564382c30783564382c30783564382c,
  0x2020202030783564382c30783564382c30783564382c30783564382c30783564382c30783564382c30783564382c30783564382c30783564382c30783564382c30783564382c30783564382c30783564382c30783564382c30783564382c30783564382c,
  0x2020202030783564382c30783564382c30783564382c30783564382c30783564382c30783564382c30783564382c30783564382c30783864612c30783438642c3078313033612c30783438642c30783438642c30783438642c30783438642c30783438642c,
  0x2020202030783438642c30783438642c30783438642c30783438642c30783438642c30783438642c30783438642c30783438642c30783438642c30783438642c30783438642c30783438642c30783438642c30783438642c30783438642c30783438642c,
  0x2020202030783438642c30783438642c30783564382c30783564382c30783564382c30783564382c30783564382c30783564382c30783564382c30783564382c30783865652c30783438642c3078313266342c3078313266622c30783564382c30783564382c,
  0x2020202030783564382c30783564382c30783564382c30783564382c30783564382c30783564382c30783564382c30783564382c30783564382c30786530312c30783438642c30783438642c30783438642c30783438642c30783438642c30783438642c,
  0x2020202030783438642c30783438642c30783438642c30783438642c30783438642c30783438642c30783438642c30783438642c30783438642c30783438642c30783438642c30783438642c30783438642c30783438642c30783438642c30783438642c,
  0x2020202030783438642c30783438642c30783438642c30783438642c30783438642c30783438642c30783438642c30783438642c30783438642c30783438642c30783438642c30783438642c30783438642c30783438642c30783438642c30783438642c,
  0x2020202030783438642c30783438642c30783564382c30783564382c30783564382c3078313330312c3078313330362c3078313330652c30783438642c30783438642c30783438642c30783438642c30783438642c30783438642c30783438642c30783438642c,
  0x2020202030783438642c30783438642c30783438642c30783438642c30783438642c30783438642c30783438642c30783438642c30783438642c30783438642c30783438642c30783438642c30783438642c30783438642c30783438642c30783438642c,
  0x2020202030783438642c30783438642c30783930632c30783930632c30783930632c30783930632c30783930632c30783930632c30783930632c30786261372c30783930632c3078313331362c30783930632c3078313331642c3078313332352c3078313332622c,
  0x2020202030783930632c3078313333312c30783930632c30783930632c3078313333392c30783438642c30783438642c30783438642c30783438642c3078313334312c30783930632c30783930632c30786162622c3078313334392c30783438642c30783438642c,
  0x2020202030783438642c30783438642c3078313335392c3078313336302c3078313336352c3078313336622c3078313337332c3078313337622c3078313338332c3078313335642c3078313338622c3078313339332c3078313339622c3078313361302c3078313337322c3078313335392c,
  0x202020203078313336302c3078313335632c3078313336622c3078313361382c3078313335612c3078313361622c3078313335642c3078313362332c3078313362622c3078313363332c3078313363612c3078313362362c3078313362652c3078313363362c3078313363642c3078313362392c,
  0x202020203078313364352c3078313335312c30783930632c30783930632c30783930632c30783930632c30783930632c30783930632c30783930632c30783930632c30783930632c30783930632c30783930632c30783930632c30783930632c30783930632c,
  0x2020202030783930632c30783930632c30783533342c3078313365352c30783533342c3078313365632c3078313366332c3078313364642c30783438642c30783438642c30783438642c30783438642c30783438642c30783438642c30783438642c30783438642c,
  0x2020202030783438642c30783438642c30783438642c30783438642c30783438642c30783438642c30783438642c30783438642c30783438642c30783438642c30783438642c30783438642c30783438642c30783438642c30783438642c30783438642c,
  0x2020202030783438642c30783438642c30783438642c30783438642c30783438642c30783438642c30783438642c30783438642c30783438642c30783438642c30783438642c30783438642c30783438642c30783438642c30783438642c30783438642c,
  0x2020202030783438642c30783438642c3078313366612c3078313430322c30783438642c30783438642c30783438642c30783438642c30783438642c30783438642c30783564382c3078313431322c3078313430612c30783438642c30783438642c30783438642c,
  0x2020202030783438642c30783438642c30783438642c30783438642c30783438642c30783438642c30783438642c30783438642c30783564382c3078313431612c30783438642c30783438642c30783438642c30783438642c30783438642c30783438642c,
  0x2020202030783438642c30783438642c30783438642c30783438642c30783438642c30783438642c30783438642c30783438642c30783438642c30783438642c30783438642c30783438642c30783438642c30783438642c30783438642c30783438642c,
  0x2020202030783438642c30783438642c30783438642c30783438642c30783438642c30783438642c30783438642c30783438642c30783438642c30783438642c30783438642c30783438642c30783438642c30783438642c30783438642c30783438642c,
  0x2020202030783438642c30783438642c30783564382c30783564382c30783564382c30783564382c30783564382c30783564382c3078313432322c30783438642c30783536352c3078313433322c3078313432612c30783438642c30783438642c30783438642c,
  0x2020202030783438642c30783438642c30783438642c30783438642c30783438642c30783438642c30783438642c30783438642c30783438642c30783438642c30783438642c30783438642c30783438642c30783438642c30783438642c30783438642c,
  0x2020202030783438642c30783438642c30783438642c30783438642c30783438642c3078313433612c3078313434612c3078313434322c30783438642c30783438642c3078313435612c3078313435322c30783438642c30783438642c30783438642c30783438642c,
  0x2020202030783438642c30783438642c3078313436612c3078313437322c3078313437612c3078313438322c3078313438612c3078313439322c30783438642c3078313436322c30783438642c30783438642c30783438642c30783438642c30783438642c30783438642c,
  0x2020202030783438642c30783438642c30783930632c3078313439612c30783930632c30783930632c30786239662c3078313439662c3078313461332c30786261372c3078313461622c30783930632c30783930632c30783930632c30783930632c30786261392c,
  0x2020202030783438642c3078313462332c3078313462622c3078313462662c3078313463372c3078313463662c30783438642c30783438642c30783438642c30783438642c30783930632c30783930632c30783930632c30783930632c30783930632c30783930632c,
  0x2020202030783930632c3078313464372c30783930632c30783930632c30783930632c30783930632c30783930632c30783930632c30783930632c30783930632c30783930632c30783930632c30783930632c30783930632c30783930632c30783930632c,
  0x2020202030783930632c30783930632c30783930632c30783930632c30783930632c30783930632c30783930632c30783930632c3078313464662c3078313465372c30783930632c30783930632c30783930632c30786239662c30783930632c30783930632c,
  0x202020203078313465662c3078313466372c3078313439612c30783930632c3078313466662c30783930632c3078313530372c3078313530632c30783438642c30783438642c30783930632c30783930632c30783930632c3078313531342c30783930632c30783930632c,
  0x202020203078313531622c30783930632c30783930632c30783930632c30786239662c3078313532302c3078313532382c3078313532652c3078313533332c30783438642c30783930632c30783930632c30783930632c30783930632c3078313533622c30783930632c,
  0x2020202030786162652c3078313137632c30783438642c30783438642c30783438642c30783438642c30783438642c30783438642c30783438642c30783438642c30783438642c30783438642c30783438642c30783438642c30783438642c30783438642c,
  0x2020202030783438642c30783438642c30783438642c30783438642c30783438642c30783438642c30783438642c30783438642c30783438642c30783438642c30783438642c30783438642c30783438642c30783438642c30783438642c30783438642c,
  0x2020202030783438642c30783438642c3078313534332c30783564382c30783564382c3078313534612c30783564382c30783564382c30783564382c3078313535322c30783564382c3078313535612c30783564382c30783564382c30783564382c30783564382c,
  0x2020202030783564382c30783564382c30783564382c30783564382c30783564382c30783564382c30783564382c30783564382c30783564382c30783564382c30783564382c30783564382c30783564382c30783564382c30783564382c30783564382c,
  0x2020202030783564382c30783564382c30783564382c30783564382c30783564382c30783564382c30783564382c30783564382c30783564382c30783564382c30783564382c30783564382c30783564382c30783564382c30783564382c30783564382c,
  0x2020202030783564382c30783564382c30783564382c30783564382c30783564382c30783564382c30783564382c30783564382c30783564382c30783564382c30783564382c30783564382c30783564382c30783564382c30783564382c30783564382c,
  0x2020202030783564382c30783564382c30786338302c30783564382c30783564382c3078313536322c30783564382c30783564382c30783564382c30783564382c30783564382c30783564382c30783564382c30783564382c30783564382c30783564382c,
  0x202020203078313536612c3078313537322c30783564382c30783564382c30783564382c30783564382c30783564382c30783564382c30783564382c30783564382c30783564382c30783564382c30783564382c30783564382c30783564382c30783564382c,
  0x2020202030783564382c30783564382c30783564382c30783564382c30783564382c30783564382c30783564382c30783564382c30783564382c30783564382c30783564382c30783564382c30783564382c30783564382c30783564382c30783564382c,
  0x2020202030783564382c30783564382c30783564382c30783564382c30783564382c30783564382c30783564382c30783564382c30783564382c30786362662c30783564382c30783564382c30783564382c30783564382c30783564382c30783564382c,
  0x2020202030783564382c30783564382c30783564382c30783564382c30783564382c30783564382c30783564382c30783564382c30783564382c30783564382c30783564382c30783564382c30783564382c30783564382c30783564382c30783564382c,
  0x2020202030783564382c30783564382c30783564382c30783564382c30783564382c30783564382c30783564382c30783564382c30783564382c30783564382c30783564382c30783564382c30783564382c3078313537392c30783564382c30783564382c,
  0x2020202030783564382c30783564382c30783564382c30783564382c30783564382c30783564382c30783564382c30783564382c30783564382c30783564382c30783564382c30783564382c30783564382c30783564382c30783564382c30783564382c,
  0x2020202030783564382c30783564382c30783564382c30783564382c30783564382c30783564382c30783564382c30783564382c30783564382c30783564382c30783564382c30783564382c30783564382c30783564382c30783564382c30783564382c,
  0x2020202030783564382c30783564382c30783564382c30783564382c30783564382c30783564382c30783564382c30783564382c30783564382c30783564382c30783564382c30783564382c30783564382c30783564382c30783564382c30783564382c,
  0x2020202030783564382c3078313538302c30783564382c30783564382c30783564382c30783564382c30783564382c30783564382c30783564382c30783564382c30783564382c30783564382c30783564382c30783564382c30783564382c30783564382c,
  0x2020202030783564382c30783564382c30783564382c30783564382c30783564382c30783564382c30783564382c30783564382c30783564382c30783564382c30783564382c30783564382c30783564382c30783564382c30783564382c30783564382c,
  0x2020202030783564382c30783564382c30783564382c30783564382c30783564382c30783564382c30783564382c30783564382c30783564382c3078313538372c30783564382c30783564382c30783564382c30783564382c30783564382c30783564382c,
  0x2020202030783564382c30783564382c30783564382c30783564382c30783564382c30783564382c30783564382c30783564382c30783564382c30783564382c30783564382c30783564382c30783564382c30783564382c30783564382c30783564382c,
  0x2020202030783564382c30783564382c30783564382c30783564382c30783564382c30783564382c30783564382c30783564382c30783564382c30783564382c30783564382c30783564382c30783564382c30783564382c30783564382c30783564382c,
  0x2020202030783564382c30783564382c30783564382c30783564382c30783564382c30783564382c30783564382c30783564382c30783564382c30783564382c30783564382c30783564382c30783564382c30783564382c30783564382c30783564382c,
  0x2020202030786635652c30783438642c30783564382c30783564382c30783564382c30783564382c30783564382c30783564382c30783564382c30783564382c30783564382c30783564382c30783564382c30783564382c30783564382c30783564382c]

/-- UnicodeData/CharPropsData.py:264-519 the lines. -/
def charText2 : List Nat :=
 [0x2020202030783564382c30783564382c30783564382c30783564382c30783564382c30783564382c30783564382c30783564382c30783564382c30783564382c30783564382c30783564382c30783564382c30783564382c30783564382c30783564382c,
  0x2020202030783564382c30783564382c30783564382c30783564382c30783564382c30783564382c30783564382c30783564382c30783564382c30783564382c30783564382c30783564382c30783564382c30783564382c30783564382c30783564382c,
  0x2020202030783564382c30783564382c30783564382c30783564382c30783564382c30783564382c30783564382c30783564382c30783564382c30783564382c30783564382c3078313538622c30783564382c30783564382c30783564382c30783564382c,
  0x2020202030783564382c30783564382c30786635652c30783564382c30783564382c30783564382c30783564382c30783564382c30783564382c30783564382c30783564382c30783564382c30783564382c30783564382c30783564382c30783564382c,
  0x2020202030783564382c30783564382c30783564382c30783564382c30783564382c30783564382c30783564382c30783564382c30783564382c30783564382c30783564382c30783564382c30783564382c30783564382c30783564382c30783564382c,
  0x2020202030783564382c30783564382c30783564382c30783564382c30783564382c30783564382c30783564382c30783564382c30783564382c30783564382c30783564382c30783564382c30783564382c30783564382c30783564382c30783564382c,
  0x2020202030783564382c30783564382c30783564382c30783564382c30783564382c30783564382c30783564382c30783564382c30783564382c30783564382c30783564382c30783564382c30783564382c30783564382c30783564382c30783564382c,
  0x2020202030783564382c30783564382c3078313036362c30783564382c30783564382c30783564382c30783564382c30783564382c30783564382c30783564382c30783564382c30783564382c30783564382c30783564382c30783564382c30783564382c,
  0x2020202030783564382c30783564382c30783564382c30783564382c30783564382c30783564382c30783564382c30783564382c30783564382c30783564382c30783564382c30783564382c30783564382c30783564382c30783564382c30783564382c,
  0x2020202030783564382c30783564382c3078313539302c30783438642c30783438642c30783438642c30783438642c30783438642c30783438642c30783438642c30783438642c30783438642c30783438642c30783438642c30783438642c30783438642c,
  0x2020202030783438642c30783438642c30783438642c30783438642c30783438642c30783438642c30783438642c30783438642c30783438642c30783438642c30783438642c30783438642c30783438642c30783438642c30783438642c30783438642c,
  0x2020202030783438642c30783438642c30783438642c30783564382c30783564382c30783564382c30783564382c3078313539382c30783564382c30783564382c30783564382c30783564382c30783564382c30783564382c30783564382c30783564382c,
  0x2020202030783564382c30783564382c30783564382c30786635652c30783438642c30783438642c30783438642c30783438642c30783438642c30783438642c30783438642c30783438642c30783438642c30783438642c30783438642c30783438642c,
  0x2020202030783438642c30783438642c30783438642c30783438642c30783438642c30783438642c30783438642c30783438642c30783438642c30783438642c30783438642c30783438642c30783438642c30783438642c30783438642c30783438642c,
  0x2020202030783438642c30783438642c30783438642c30783438642c30783438642c30783438642c30783438642c30783438642c30783438642c30783438642c30783438642c30783438642c30783438642c30783438642c30783438642c30783438642c,
  0x2020202030783438642c30783438642c30783438642c30783564382c30783564382c30783564382c30783564382c30783564382c30783564382c30783564382c30783564382c30783564382c30783564382c30783564382c30783564382c30783564382c,
  0x2020202030783564382c30783564382c30783564382c30783564382c30783564382c30783564382c30783564382c30783564382c30783564382c30783564382c30783564382c30783564382c30783564382c30783635352c30783438642c30783438642c,
  0x2020202030783438642c30783438642c30783438642c30783438642c30783438642c30783438642c30783438642c30783438642c30783438642c30783438642c30783438642c30783438642c30783438642c30783438642c30783438642c30783438642c,
  0x2020202030783438642c30783438642c30783438642c30783438642c30783438642c30783438642c30783438642c30783438642c30783438642c30783438642c30783438642c30783438642c30783438642c30783438642c30783438642c30783438642c,
  0x2020202030783438642c30783438642c30783438642c3078313561382c3078313561302c3078313561302c3078313561302c30783438642c30783438642c30783438642c30783438642c30783533342c30783533342c30783533342c30783533342c30783533342c,
  0x2020202030783533342c30783533342c3078313562302c30783438642c30783438642c30783438642c30783438642c30783438642c30783438642c30783438642c30783438642c30783438642c30783438642c30783438642c30783438642c30783438642c,
  0x2020202030783438642c30783438642c30783438642c30783438642c30783438642c30783438642c30783438642c30783438642c30783438642c30783438642c30783438642c30783438642c30783438642c30783438642c30783438642c30783438642c,
  0x2020202030783438642c30783438642c30783438642c30783438642c30783438642c30783438642c30783438642c30783438642c30783438642c30783438642c30783438642c30783438642c30783438642c30783438642c30783438642c30783438642c,
  0x2020202030783438642c30783438642c30783438642c30786531392c30786531392c30786531392c30786531392c30786531392c30786531392c30786531392c30786531392c30786531392c30786531392c30786531392c30786531392c30786531392c,
  0x2020202030786531392c30786531392c30786531392c30786531392c30786531392c30786531392c30786531392c30786531392c30786531392c30786531392c30786531392c30786531392c30786531392c30786531392c30786531392c30786531392c,
  0x2020202030786531392c30786531392c30786531392c30786531392c30786531392c30786531392c30786531392c30786531392c30786531392c30786531392c30786531392c30786531392c30786531392c30786531392c30786531392c30786531392c,
  0x2020202030786531392c30786531392c30786531392c30786531392c30786531392c30786531392c30786531392c30786531392c30786531392c30786531392c30786531392c30786531392c30786531392c30786531392c30786531392c30786531392c,
  0x2020202030786531392c30786531392c3078313562382c30783436632c3078662c3078662c3078662c3078662c3078662c3078662c3078662c3078662c3078662c3078662c3078662c3078662c,
  0x202020203078662c3078662c3078662c3078662c3078662c3078662c3078662c3078662c3078662c3078662c3078662c3078662c3078662c3078662c3078662c3078662c,
  0x202020203078662c3078662c3078662c3078662c3078632c307831372c307831372c307831372c307831392c307831372c307831372c307831372c307831342c307831352c307831372c307831382c,
  0x20202020307831372c307831332c307831372c307831372c307834392c307838392c307863392c30783130392c30783134392c30783138392c30783163392c30783230392c30783234392c30783238392c307831372c307831372c,
  0x20202020307831382c307831382c307831382c307831372c307831372c312c312c312c312c312c312c312c312c312c312c312c,
  0x20202020312c312c312c312c312c312c312c312c312c312c312c312c312c312c312c307831342c,
  0x20202020307831372c307831352c307831612c307831362c307831612c322c322c322c322c322c322c322c322c322c322c322c,
  0x20202020322c322c322c322c322c322c322c322c322c322c322c322c322c322c322c307831342c,
  0x20202020307831382c307831352c307831382c3078662c302c302c302c302c302c302c302c302c302c302c302c302c,
  0x20202020302c302c302c302c302c302c302c302c302c302c302c302c302c302c302c302c,
  0x20202020302c302c302c302c302c302c302c302c302c302c302c302c302c302c302c302c,
  0x20202020302c302c302c302c302c302c302c302c302c302c302c302c302c302c302c302c,
  0x20202020302c302c302c302c3078662c3078662c3078662c3078662c3078662c3078662c3078662c3078662c3078662c3078662c3078662c3078662c,
  0x202020203078662c3078662c3078662c3078662c3078662c3078662c3078662c3078662c3078662c3078662c3078662c3078662c3078662c3078662c3078662c3078662c,
  0x202020203078662c3078662c3078662c3078662c3078632c307831372c307831392c307831392c307831392c307831392c307831622c307831372c307831612c307831622c352c307831632c,
  0x20202020307831382c307831302c307831622c307831612c307831622c307831382c30783334622c30783338622c307831612c322c307831372c307831372c307831612c30783330622c352c307831642c,
  0x202020203078333463622c3078333434622c3078336363622c307831372c312c312c312c312c312c312c312c312c312c312c312c312c,
  0x20202020312c312c312c312c312c312c312c312c312c312c312c307831382c312c312c312c312c,
  0x20202020312c312c312c322c322c322c322c322c322c322c322c322c322c322c322c322c,
  0x20202020322c322c322c322c322c322c322c322c322c322c322c307831382c322c322c322c322c,
  0x20202020322c322c322c322c312c322c312c322c312c322c312c322c312c322c312c322c,
  0x20202020312c322c312c322c312c322c312c322c312c322c312c322c312c322c312c322c,
  0x20202020312c322c312c322c312c322c312c322c312c322c312c322c312c322c312c322c,
  0x20202020312c322c312c322c312c322c312c322c312c322c312c322c322c312c322c312c,
  0x20202020322c312c322c312c322c322c312c322c312c322c312c322c312c322c312c322c,
  0x20202020312c322c312c322c312c322c312c322c312c322c312c322c312c322c312c322c,
  0x20202020312c322c312c322c312c322c312c322c312c322c312c322c312c322c312c322c,
  0x20202020312c322c312c322c312c312c322c312c322c312c322c322c322c312c312c322c,
  0x20202020312c322c312c312c322c312c312c312c322c322c312c312c312c312c322c312c,
  0x20202020312c322c312c312c312c322c322c322c312c312c322c312c312c322c312c322c,
  0x20202020312c322c312c312c322c312c322c322c312c322c312c312c322c312c312c312c,
  0x20202020322c312c322c312c312c322c322c352c312c322c322c322c352c352c352c352c,
  0x20202020312c332c322c312c332c322c312c332c322c312c322c312c322c312c322c312c,
  0x20202020322c312c322c312c322c312c322c312c322c322c312c322c312c322c312c322c,
  0x20202020312c322c312c322c312c322c312c322c312c322c312c322c322c312c332c322c,
  0x20202020312c322c312c312c312c322c312c322c312c322c312c322c312c322c312c322c,
  0x20202020312c322c312c322c312c322c312c322c312c322c312c322c312c322c312c322c,
  0x20202020312c322c312c322c312c322c312c322c312c322c312c322c312c322c312c322c,
  0x20202020312c322c312c322c312c322c312c322c322c322c322c322c322c322c312c312c,
  0x20202020322c312c312c322c322c312c322c312c312c312c312c322c312c322c312c322c,
  0x20202020312c322c312c322c322c322c322c322c322c322c322c322c322c322c322c322c,
  0x20202020322c322c322c322c322c322c322c322c322c322c322c322c322c322c322c322c,
  0x20202020322c322c322c322c322c322c322c322c322c322c322c322c322c322c322c322c,
  0x20202020322c322c322c322c352c322c322c322c322c322c322c322c322c322c322c322c,
  0x20202020322c322c322c322c322c322c322c322c322c322c322c322c322c322c322c322c,
  0x20202020342c342c342c342c342c342c342c342c342c342c342c342c342c342c342c342c,
  0x20202020342c342c307831612c307831612c307831612c307831612c342c342c342c342c342c342c342c342c342c342c,
  0x20202020342c342c307831612c307831612c307831612c307831612c307831612c307831612c307831612c307831612c307831612c307831612c307831612c307831612c307831612c307831612c,
  0x20202020342c342c342c342c342c307831612c307831612c307831612c307831612c307831612c307831612c307831612c342c307831612c342c307831612c,
  0x20202020307831612c307831612c307831612c307831612c307831612c307831612c307831612c307831612c307831612c307831612c307831612c307831612c307831612c307831612c307831612c307831612c,
  0x20202020362c362c362c362c362c362c362c362c362c362c362c362c362c362c362c362c,
  0x20202020362c362c362c362c362c362c362c362c362c362c362c362c362c362c362c362c,
  0x20202020362c362c362c362c362c362c362c362c362c362c362c362c362c362c362c362c,
  0x20202020362c362c362c362c362c362c362c362c362c362c362c362c362c362c362c362c,
  0x20202020312c322c312c322c342c307831612c312c322c302c302c342c322c322c322c307831372c312c,
  0x20202020302c302c302c302c307831612c307831612c312c307831372c312c312c312c302c312c302c312c312c,
  0x20202020322c312c312c312c312c312c312c312c312c312c312c312c312c312c312c312c,
  0x20202020312c312c302c312c312c312c312c312c312c312c312c312c322c322c322c322c,
  0x20202020322c322c322c322c322c322c322c322c322c322c322c322c322c322c322c322c,
  0x20202020322c322c322c312c322c322c312c312c312c322c322c322c312c322c312c322c,
  0x20202020312c322c312c322c312c322c312c322c312c322c312c322c312c322c312c322c,
  0x20202020312c322c312c322c322c322c322c322c312c322c307831382c312c322c312c312c322c,
  0x20202020322c312c312c312c312c312c312c312c312c312c312c312c312c312c312c312c,
  0x20202020312c312c312c312c312c312c312c312c312c312c312c312c312c312c312c312c,
  0x20202020312c312c312c312c312c312c312c312c312c312c312c312c312c312c312c312c,
  0x20202020312c312c312c312c322c322c322c322c322c322c322c322c322c322c322c322c,
  0x20202020322c322c322c322c322c322c322c322c322c322c322c322c322c322c322c322c,
  0x20202020322c322c322c322c312c322c312c322c312c322c312c322c312c322c312c322c,
  0x20202020312c322c312c322c312c322c312c322c312c322c312c322c312c322c312c322c,
  0x20202020312c322c312c322c312c322c307831622c362c362c362c362c362c372c372c312c322c,
  0x20202020312c322c312c322c312c322c312c322c312c322c312c322c312c322c312c322c,
  0x20202020312c322c312c322c312c322c312c322c312c322c312c322c312c322c312c322c,
  0x20202020312c322c312c322c312c322c312c322c312c322c312c322c312c322c312c322c,
  0x20202020312c322c312c322c312c312c322c312c322c312c322c312c322c312c322c312c,
  0x20202020322c312c322c322c312c322c312c322c312c322c312c322c312c322c312c322c,
  0x20202020312c322c312c322c312c322c312c322c312c322c312c322c312c322c312c322c,
  0x20202020312c322c312c322c312c322c312c322c312c322c312c322c312c322c312c322c,
  0x20202020312c322c312c322c302c312c312c312c312c312c312c312c312c312c312c312c,
  0x20202020312c312c312c312c312c312c312c312c312c312c312c312c312c312c312c302c,
  0x20202020302c342c307831372c307831372c307831372c307831372c307831372c307831372c322c322c322c322c322c322c322c322c,
  0x20202020322c322c322c322c322c322c322c322c322c322c322c322c322c322c322c322c,
  0x20202020322c322c322c322c322c322c322c322c322c307831372c307831332c302c302c307831622c307831622c307831392c,
  0x20202020302c362c362c362c362c362c362c362c362c362c362c362c362c362c362c362c,
  0x20202020362c362c362c362c362c362c362c362c362c362c362c362c362c362c362c362c,
  0x20202020362c362c362c362c362c362c362c362c362c362c362c362c362c362c307831332c362c,
  0x20202020307831372c362c362c307831372c362c362c307831372c362c302c302c302c302c302c302c302c302c,
  0x20202020352c352c352c352c352c352c352c352c352c352c352c352c352c352c352c352c,
  0x20202020352c352c352c352c352c352c352c352c352c352c352c302c302c302c302c352c,
  0x20202020352c352c352c307831372c307831372c302c302c302c302c302c302c302c302c302c302c302c,
  0x20202020307831302c307831302c307831302c307831302c307831302c307831302c307831382c307831382c307831382c307831372c307831372c307831392c307831372c307831372c307831622c307831622c,
  0x20202020362c362c362c362c362c362c362c362c362c362c362c307831372c307831302c302c307831372c307831372c,
  0x20202020352c352c352c352c352c352c352c352c352c352c352c352c352c352c352c352c,
  0x20202020352c352c352c352c352c352c352c352c352c352c352c352c352c352c352c352c,
  0x20202020342c352c352c352c352c352c352c352c352c352c352c362c362c362c362c362c,
  0x20202020362c362c362c362c362c362c362c362c362c362c362c362c362c362c362c362c,
  0x20202020307834392c307838392c307863392c30783130392c30783134392c30783138392c30783163392c30783230392c30783234392c30783238392c307831372c307831372c307831372c307831372c352c352c,
  0x20202020362c352c352c352c352c352c352c352c352c352c352c352c352c352c352c352c,
  0x20202020352c352c352c352c352c352c352c352c352c352c352c352c352c352c352c352c,
  0x20202020352c352c352c352c352c352c352c352c352c352c352c352c352c352c352c352c,
  0x20202020352c352c352c352c352c352c352c352c352c352c352c352c352c352c352c352c,
  0x20202020352c352c352c352c307831372c352c362c362c362c362c362c362c362c307831302c307831622c362c,
  0x20202020362c362c362c362c362c342c342c362c362c307831622c362c362c362c362c352c352c,
  0x20202020307834392c307838392c307863392c30783130392c30783134392c30783138392c30783163392c30783230392c30783234392c30783238392c352c352c352c307831622c307831622c352c,
  0x20202020307831372c307831372c307831372c307831372c307831372c307831372c307831372c307831372c307831372c307831372c307831372c307831372c307831372c307831372c302c307831302c,
  0x20202020352c362c352c352c352c352c352c352c352c352c352c352c352c352c352c352c,
  0x20202020352c352c352c352c352c352c352c352c352c352c352c352c352c352c352c352c,
  0x20202020362c362c362c362c362c362c362c362c362c362c362c362c362c362c362c362c,
  0x20202020362c362c362c302c302c352c352c352c352c352c352c352c352c352c352c352c,
  0x20202020352c352c352c352c352c352c352c352c352c352c352c352c352c352c352c352c,
  0x20202020352c352c352c352c352c352c352c352c352c352c352c352c352c352c352c352c,
  0x20202020352c352c352c352c352c352c352c352c352c352c362c362c362c362c362c362c,
  0x20202020362c362c362c362c362c352c302c302c302c302c302c302c302c302c302c302c,
  0x20202020302c302c302c302c307834392c307838392c307863392c30783130392c30783134392c30783138392c30783163392c30783230392c30783234392c30783238392c352c352c,
  0x20202020352c352c352c352c352c352c352c352c352c352c352c352c352c352c352c352c,
  0x20202020352c352c352c352c352c352c352c352c352c352c352c352c352c352c352c362c,
  0x20202020362c362c362c362c362c362c362c362c342c342c307831622c307831372c307831372c307831372c342c302c,
  0x20202020302c362c307831392c307831392c362c362c362c362c342c362c362c362c342c362c362c362c,
  0x20202020362c362c302c302c307831372c307831372c307831372c307831372c307831372c307831372c307831372c307831372c307831372c307831372c307831372c307831372c,
  0x20202020307831372c307831372c307831372c302c352c352c352c352c352c352c352c352c352c352c352c352c,
  0x20202020352c352c352c352c352c352c352c352c352c352c362c362c362c362c342c362c,
  0x20202020362c362c362c362c352c352c352c352c352c352c352c352c352c352c352c352c,
  0x20202020352c352c352c352c352c352c352c352c352c352c352c352c352c362c362c362c,
  0x20202020302c302c307831372c302c352c352c352c352c352c352c352c352c352c352c352c302c,
  0x20202020302c302c302c302c302c302c302c302c302c302c302c302c302c302c302c302c,
  0x20202020302c302c302c302c362c362c307831302c362c362c362c362c362c362c362c362c362c,
  0x20202020362c362c362c362c362c362c362c362c362c362c362c362c362c362c362c362c,
  0x20202020362c362c362c362c352c352c352c352c352c352c352c352c352c352c352c352c,
  0x20202020352c352c352c352c352c352c352c352c352c302c352c352c352c352c352c352c,
  0x20202020352c352c352c352c302c302c302c302c302c302c302c302c302c302c302c362c,
  0x20202020362c362c362c362c362c362c362c362c362c362c362c362c352c352c362c362c,
  0x20202020307831372c307831372c307834392c307838392c307863392c30783130392c30783134392c30783138392c30783163392c30783230392c30783234392c30783238392c307831372c342c352c352c,
  0x20202020352c352c352c352c352c352c352c352c352c352c352c352c362c362c362c382c,
  0x20202020352c352c352c352c352c352c352c352c352c352c352c352c352c352c352c352c,
  0x20202020352c352c352c352c352c352c352c352c352c352c352c352c352c352c362c382c,
  0x20202020362c352c382c382c382c362c362c362c362c362c362c362c362c382c382c382c,
  0x20202020382c362c382c382c352c362c362c362c362c362c362c362c352c352c352c352c,
  0x20202020352c352c352c352c352c352c362c362c302c302c307834392c307838392c307863392c30783130392c30783134392c30783138392c,
  0x2020202030783163392c30783230392c30783234392c30783238392c352c352c307831392c307831392c3078333763622c3078333563622c3078336663622c3078333463622c3078336363622c30783934622c307831622c307831392c,
  0x20202020352c307831372c362c302c352c362c382c382c302c352c352c352c352c352c352c352c,
  0x20202020352c302c302c352c352c302c302c352c352c352c352c352c352c352c352c352c,
  0x20202020352c352c352c352c352c302c352c352c352c352c352c352c352c302c352c302c,
  0x20202020302c302c352c352c352c352c302c302c362c352c382c382c382c362c362c362c,
  0x20202020362c302c302c382c382c302c302c382c382c362c352c302c302c302c302c302c,
  0x20202020302c302c302c382c302c302c302c302c352c352c302c352c302c302c302c302c,
  0x20202020302c302c307834392c307838392c307863392c30783130392c30783134392c30783138392c30783163392c30783230392c30783234392c30783238392c362c362c352c352c,
  0x20202020352c362c307831372c302c302c302c302c302c302c302c302c302c302c362c362c382c,
  0x20202020302c352c352c352c352c352c352c302c302c302c302c352c352c302c302c352c,
  0x20202020352c352c352c352c352c352c352c352c352c352c352c352c352c302c352c352c,
  0x20202020352c352c352c352c352c302c352c352c302c352c352c302c352c352c302c302c,
  0x20202020362c302c382c382c382c362c362c302c302c302c302c362c362c302c302c362c,
  0x20202020362c362c302c302c302c362c302c302c302c302c302c302c302c352c352c352c,
  0x20202020352c302c352c302c352c352c362c362c302c302c307834392c307838392c307863392c30783130392c30783134392c30783138392c,
  0x2020202030783163392c30783230392c30783234392c30783238392c307831372c307831392c302c302c302c302c302c302c302c352c362c362c,
  0x20202020362c362c362c362c302c362c362c382c302c352c352c352c352c352c352c352c,
  0x20202020352c352c302c352c352c352c302c352c352c352c352c352c352c352c352c352c,
  0x20202020352c352c352c352c352c302c352c352c352c352c352c352c352c302c352c352c,
  0x20202020302c352c352c352c352c352c302c302c362c352c382c382c382c362c362c362c,
  0x20202020362c362c302c362c362c382c302c382c382c362c302c302c352c302c302c302c,
  0x20202020302c302c302c302c302c302c302c302c302c302c302c302c352c352c362c362c,
  0x20202020302c302c307834392c307838392c307863392c30783130392c30783134392c30783138392c30783163392c30783230392c30783234392c30783238392c307831622c352c3078333463622c3078333434622c,
  0x202020203078336363622c3078333763622c3078333563622c3078336663622c302c302c302c302c302c302c302c302c302c362c382c382c,
  0x20202020302c352c352c352c352c352c352c352c352c302c302c352c352c302c302c352c,
  0x20202020352c352c352c352c352c352c352c352c352c352c352c352c352c302c352c352c,
  0x20202020352c352c352c352c352c302c352c352c302c352c352c352c352c352c302c302c,
  0x20202020362c352c382c362c382c362c362c362c362c302c302c382c382c302c302c382c,
  0x20202020382c362c302c302c302c302c302c302c302c362c362c382c302c302c302c302c,
  0x20202020352c352c302c352c302c302c302c302c302c302c307834392c307838392c307863392c30783130392c30783134392c30783138392c,
  0x2020202030783163392c30783230392c30783234392c30783238392c30783763622c3078316534622c3078373834622c307831622c307831622c307831622c307831622c307831622c307831622c307831392c307831622c302c,
  0x20202020302c302c302c302c302c302c362c352c302c352c352c352c352c352c352c302c,
  0x20202020302c302c352c352c352c302c352c352c352c352c302c302c302c352c352c302c,
  0x20202020352c302c352c352c302c302c302c352c352c302c302c302c352c352c352c302c,
  0x20202020302c302c352c352c352c352c352c352c352c352c352c352c352c352c302c302c,
  0x20202020302c302c382c382c362c382c382c302c302c302c382c382c382c302c382c382c,
  0x20202020382c362c302c302c352c302c302c302c302c302c302c382c302c302c302c302c,
  0x20202020302c302c302c302c352c352c362c362c302c302c307834392c307838392c307863392c30783130392c30783134392c30783138392c,
  0x2020202030783163392c30783230392c30783234392c30783238392c302c302c302c302c302c302c302c307831372c30783534622c30783538622c30783563622c30783630622c,
  0x2020202030783538622c30783563622c30783630622c307831622c362c382c382c382c362c352c352c352c352c352c352c352c,
  0x20202020352c302c352c352c352c302c352c352c352c352c352c352c352c352c352c352c,
  0x20202020352c352c352c352c352c302c352c352c352c352c352c352c352c352c352c352c,
  0x20202020352c352c352c352c352c352c302c302c302c352c362c362c362c382c382c382c,
  0x20202020382c302c362c362c362c302c362c362c362c362c302c302c302c302c302c302c,
  0x20202020302c362c362c302c352c352c352c302c302c302c302c302c352c352c362c362c,
  0x20202020302c302c307834392c307838392c307863392c30783130392c30783134392c30783138392c30783163392c30783230392c30783234392c30783238392c302c352c352c302c,
  0x20202020302c302c302c302c302c302c302c302c302c302c302c302c352c362c382c382c,
  0x20202020307831372c352c352c352c352c352c352c352c352c302c352c352c352c302c352c352c,
  0x20202020352c352c352c352c352c352c352c352c352c352c352c352c352c302c352c352c,
  0x20202020352c352c352c352c352c352c352c352c302c352c352c352c352c352c302c302c,
  0x20202020362c352c382c362c382c382c382c382c382c302c362c382c382c302c382c382c,
  0x20202020362c362c302c302c302c302c302c302c302c382c382c302c302c302c302c302c,
  0x20202020302c302c352c302c352c352c362c362c302c302c307834392c307838392c307863392c30783130392c30783134392c30783138392c,
  0x2020202030783163392c30783230392c30783234392c30783238392c30783763622c3078316534622c3078373834622c3078333463622c3078333434622c3078336363622c3078333763622c3078333563622c3078336663622c307831622c352c352c,
  0x20202020352c352c352c352c362c362c382c382c352c352c352c352c352c352c352c352c,
  0x20202020352c302c352c352c352c302c352c352c352c352c352c352c352c352c352c352c,
  0x20202020352c352c352c352c352c352c352c352c352c352c352c352c352c352c352c352c,
  0x20202020352c352c352c362c362c352c382c382c382c362c362c362c362c302c382c382c,
  0x20202020382c302c382c382c382c362c352c307831622c302c302c302c302c352c352c352c382c,
  0x202020203078636330622c3078636130622c3078636234622c3078633930622c3078333634622c3078633934622c3078333530622c352c302c302c302c302c302c302c307834392c307838392c,
  0x20202020307863392c30783130392c30783134392c30783138392c30783163392c30783230392c30783234392c30783238392c302c302c382c382c307831372c302c302c302c,
  0x20202020302c302c302c302c302c302c302c302c302c362c382c382c302c352c352c352c,
  0x20202020352c352c352c352c352c352c352c352c352c352c352c352c352c352c352c302c,
  0x20202020302c302c352c352c352c352c352c352c352c352c352c352c352c352c352c352c,
  0x20202020352c352c352c352c352c352c302c352c352c352c352c352c352c352c352c352c,
  0x20202020302c352c302c302c352c352c352c352c352c352c352c302c302c302c362c302c,
  0x20202020302c302c302c382c382c382c362c362c362c302c362c302c382c382c382c382c,
  0x20202020382c382c382c382c352c352c352c352c352c352c352c352c352c352c352c352c,
  0x20202020352c352c352c352c352c362c352c352c362c362c362c362c362c362c362c302c,
  0x20202020302c302c302c307831392c352c352c352c352c352c352c342c362c362c362c362c362c,
  0x20202020362c362c362c307831372c307834392c307838392c307863392c30783130392c30783134392c30783138392c30783163392c30783230392c30783234392c30783238392c307831372c307831372c,
  0x20202020302c302c302c302c302c352c352c302c352c302c352c352c352c352c352c302c,
  0x20202020352c352c352c352c352c352c352c352c352c352c352c352c352c352c352c352c,
  0x20202020352c352c352c352c302c352c302c352c352c352c352c352c352c352c352c352c,
  0x20202020352c362c352c352c362c362c362c362c362c362c362c362c362c352c302c302c,
  0x20202020352c352c352c352c352c302c342c302c362c362c362c362c362c362c302c302c,
  0x20202020307834392c307838392c307863392c30783130392c30783134392c30783138392c30783163392c30783230392c30783234392c30783238392c302c302c352c352c352c352c,
  0x20202020352c307831622c307831622c307831622c307831372c307831372c307831372c307831372c307831372c307831372c307831372c307831372c307831372c307831372c307831372c307831372c,
  0x20202020307831372c307831372c307831372c307831622c307831372c307831622c307831622c307831622c362c362c307831622c307831622c307831622c307831622c307831622c307831622c,
  0x20202020307834392c307838392c307863392c30783130392c30783134392c30783138392c30783163392c30783230392c30783234392c30783238392c3078333434622c3078336334622c3078343434622c3078346334622c3078353434622c3078356334622c,
  0x202020203078363434622c3078366334622c3078373434622c3078326334622c307831622c362c307831622c362c307831622c362c307831342c307831352c307831342c307831352c382c382c,
  0x20202020352c352c352c352c352c352c352c352c302c352c352c352c352c352c352c352c,
  0x20202020352c352c352c352c352c352c352c352c352c352c352c352c352c352c352c352c,
  0x20202020352c302c302c302c302c362c362c362c362c362c362c362c362c362c362c362c,
  0x20202020362c362c362c382c362c362c362c362c362c307831372c362c362c352c352c352c352c,
  0x20202020352c362c362c362c362c362c362c362c362c362c362c362c302c362c362c362c,
  0x20202020362c362c362c362c362c362c362c362c362c362c362c362c362c362c362c362c,
  0x20202020362c362c362c362c362c362c362c362c362c362c362c362c362c302c307831622c307831622c,
  0x20202020307831622c307831622c307831622c307831622c307831622c307831622c362c307831622c307831622c307831622c307831622c307831622c307831622c302c307831622c307831622c,
  0x20202020307831372c307831372c307831372c307831372c307831372c307831622c307831622c307831622c307831622c307831372c307831372c302c302c302c302c302c,
  0x20202020352c352c352c352c352c352c352c352c352c352c352c382c382c362c362c362c,
  0x20202020362c382c362c362c362c362c362c362c382c362c362c382c382c362c362c352c]

/-- UnicodeData/CharPropsData.py:520-775 the lines. -/
def charText3 : List Nat :=
 [0x20202020307834392c307838392c307863392c30783130392c30783134392c30783138392c30783163392c30783230392c30783234392c30783238392c307831372c307831372c307831372c307831372c307831372c307831372c,
  0x20202020352c352c352c352c352c352c382c382c362c362c352c352c352c352c362c362c,
  0x20202020362c352c382c382c382c352c352c382c382c382c382c382c382c382c352c352c,
  0x20202020352c362c362c362c362c352c352c352c352c352c352c352c352c352c352c352c,
  0x20202020352c352c362c382c382c362c362c382c382c382c382c382c382c362c352c382c,
  0x20202020307834392c307838392c307863392c30783130392c30783134392c30783138392c30783163392c30783230392c30783234392c30783238392c382c382c382c362c307831622c307831622c,
  0x20202020322c322c322c322c322c322c322c322c322c322c322c322c322c322c322c322c,
  0x20202020322c322c322c322c322c322c322c322c322c322c322c307831372c342c322c322c322c,
  0x20202020312c312c312c312c312c312c302c312c302c302c302c302c302c312c302c302c,
  0x20202020322c322c322c322c322c322c322c322c322c322c322c322c322c322c322c322c,
  0x20202020352c352c352c352c352c352c352c352c352c302c352c352c352c352c302c302c,
  0x20202020352c352c352c352c352c352c352c302c352c302c352c352c352c352c302c302c,
  0x20202020352c352c352c352c352c352c352c352c352c302c352c352c352c352c302c302c,
  0x20202020352c352c352c352c352c352c352c352c352c352c352c352c352c352c352c352c,
  0x20202020352c302c352c352c352c352c302c302c352c352c352c352c352c352c352c302c,
  0x20202020352c302c352c352c352c352c302c302c352c352c352c352c352c352c352c352c,
  0x20202020352c352c352c352c352c352c352c302c352c352c352c352c352c352c352c352c,
  0x20202020352c352c352c352c352c352c352c352c352c302c352c352c352c352c302c302c,
  0x20202020352c352c352c352c352c352c352c352c352c352c352c352c352c352c352c352c,
  0x20202020352c352c352c352c352c352c352c352c352c352c352c302c302c362c362c362c,
  0x20202020307831372c307831372c307831372c307831372c307831372c307831372c307831372c307831372c307831372c30783330622c30783334622c30783338622c30783363622c30783430622c30783434622c30783438622c,
  0x2020202030783463622c30783530622c30783763622c30786134622c30786363622c30786634622c3078313163622c3078313434622c3078313663622c3078313934622c3078316263622c3078316534622c3078373838622c302c302c302c,
  0x20202020352c352c352c352c352c352c352c352c352c352c352c352c352c352c352c352c,
  0x20202020307831622c307831622c307831622c307831622c307831622c307831622c307831622c307831622c307831622c307831622c302c302c302c302c302c302c,
  0x20202020312c312c312c312c312c312c312c312c312c312c312c312c312c312c312c312c,
  0x20202020312c312c312c312c312c312c302c302c322c322c322c322c322c322c302c302c,
  0x20202020307831332c352c352c352c352c352c352c352c352c352c352c352c352c352c352c352c,
  0x20202020352c352c352c352c352c352c352c352c352c352c352c352c352c352c352c352c,
  0x20202020352c307831622c307831372c352c352c352c352c352c352c352c352c352c352c352c352c352c,
  0x20202020352c352c352c352c3078632c352c352c352c352c352c352c352c352c352c352c352c,
  0x20202020352c352c352c352c352c352c352c352c352c352c352c352c352c352c352c307831342c,
  0x20202020307831352c302c302c302c352c352c352c352c352c352c352c352c352c352c352c307831372c,
  0x20202020307831372c307831372c30783938612c30783963612c30786130612c352c352c352c352c352c352c352c352c302c302c302c,
  0x20202020302c302c302c302c352c352c352c352c352c352c352c352c352c352c352c352c,
  0x20202020352c302c352c352c352c352c362c362c362c302c302c302c302c302c302c302c,
  0x20202020302c302c302c302c352c352c352c352c352c352c352c352c352c352c352c352c,
  0x20202020352c352c352c352c352c352c362c362c362c307831372c307831372c302c302c302c302c302c,
  0x20202020302c302c302c302c352c352c352c352c352c352c352c352c352c352c352c352c,
  0x20202020352c352c352c352c352c352c362c362c302c302c302c302c302c302c302c302c,
  0x20202020302c302c302c302c352c352c352c352c352c352c352c352c352c352c352c352c,
  0x20202020352c302c352c352c352c302c362c362c302c302c302c302c302c302c302c302c,
  0x20202020302c302c302c302c352c352c352c352c352c352c352c352c352c352c352c352c,
  0x20202020352c352c352c352c352c352c352c352c362c362c382c362c362c362c362c362c,
  0x20202020362c362c382c382c382c382c382c382c382c382c362c382c382c362c362c362c,
  0x20202020362c362c362c362c362c362c362c362c307831372c307831372c307831372c342c307831372c307831372c307831372c307831392c,
  0x20202020352c362c302c302c307834392c307838392c307863392c30783130392c30783134392c30783138392c30783163392c30783230392c30783234392c30783238392c302c302c,
  0x20202020302c302c302c302c30783534622c30783538622c30783563622c30783630622c30783634622c30783638622c30783663622c30783730622c30783734622c30783738622c302c302c,
  0x20202020302c302c302c302c352c352c352c352c352c352c352c352c352c362c352c302c,
  0x20202020302c302c302c302c352c352c352c352c352c352c352c352c352c352c352c352c,
  0x20202020352c352c352c352c307831372c307831372c307831372c307831372c307831372c307831372c307831332c307831372c307831372c307831372c307831372c362c,
  0x20202020362c362c307831302c302c307834392c307838392c307863392c30783130392c30783134392c30783138392c30783163392c30783230392c30783234392c30783238392c302c302c,
  0x20202020302c302c302c302c352c352c352c342c352c352c352c352c352c352c352c352c,
  0x20202020352c352c352c352c352c352c352c352c352c352c352c352c352c352c352c352c,
  0x20202020352c352c352c352c352c302c302c302c302c302c302c302c352c352c352c352c,
  0x20202020352c362c362c352c352c352c352c352c352c352c352c352c352c352c352c352c,
  0x20202020352c352c352c352c352c352c352c352c352c352c352c352c352c352c302c302c,
  0x20202020302c302c302c302c302c302c302c302c362c362c362c382c382c382c382c362c,
  0x20202020362c382c382c382c302c302c302c302c382c382c362c382c382c382c382c382c,
  0x20202020382c362c362c362c302c302c302c302c307831622c302c302c302c307831372c307831372c307834392c307838392c,
  0x20202020307863392c30783130392c30783134392c30783138392c30783163392c30783230392c30783234392c30783238392c352c352c352c352c352c352c352c352c,
  0x20202020352c352c352c352c352c352c352c352c352c352c352c352c352c352c352c352c,
  0x20202020352c352c352c352c352c352c352c302c352c352c352c352c352c352c352c352c,
  0x20202020352c352c352c352c352c352c302c302c352c352c352c352c352c302c302c302c,
  0x20202020302c302c302c302c302c302c302c302c352c352c352c352c352c352c352c352c,
  0x20202020352c352c352c352c302c302c302c302c352c352c352c352c352c352c352c352c,
  0x20202020352c352c352c352c352c352c352c352c352c352c302c302c302c302c302c302c,
  0x20202020307834392c307838392c307863392c30783130392c30783134392c30783138392c30783163392c30783230392c30783234392c30783238392c30783330622c302c302c302c307831622c307831622c,
  0x20202020307831622c307831622c307831622c307831622c307831622c307831622c307831622c307831622c307831622c307831622c307831622c307831622c307831622c307831622c307831622c307831622c,
  0x20202020307831622c307831622c307831622c307831622c307831622c307831622c307831622c307831622c307831622c307831622c307831622c307831622c307831622c307831622c307831622c307831622c,
  0x20202020352c352c352c352c352c352c352c352c352c352c352c352c352c352c352c352c,
  0x20202020352c352c352c352c352c352c352c362c362c382c382c362c302c302c307831372c307831372c,
  0x20202020307831372c307831372c307831372c307831372c307831372c307831372c307831372c342c307831372c307831372c307831372c307831372c307831372c307831372c302c302c,
  0x20202020362c362c362c362c362c362c362c362c362c362c362c362c362c362c372c362c,
  0x20202020352c352c352c352c352c352c352c352c352c352c352c352c352c352c352c352c,
  0x20202020352c352c352c352c352c382c362c382c362c362c362c362c362c362c362c302c,
  0x20202020362c382c362c382c382c362c362c362c362c362c362c362c362c382c382c382c,
  0x20202020382c382c382c362c362c362c362c362c362c362c362c362c362c302c302c362c,
  0x20202020307834392c307838392c307863392c30783130392c30783134392c30783138392c30783163392c30783230392c30783234392c30783238392c302c302c302c302c302c302c,
  0x20202020307834392c307838392c307863392c30783130392c30783134392c30783138392c30783163392c30783230392c30783234392c30783238392c302c302c302c302c302c302c,
  0x20202020307831372c307831622c307831622c307831622c307831622c307831622c307831622c307831622c307831622c307831622c307831622c362c362c362c362c362c,
  0x20202020362c362c362c362c307831622c307831622c307831622c307831622c307831622c307831622c307831622c307831622c307831622c302c302c302c,
  0x20202020362c302c302c302c302c302c302c302c302c302c302c302c302c302c302c302c,
  0x20202020302c302c302c302c302c302c302c302c302c302c302c302c302c302c302c302c,
  0x20202020362c362c362c362c382c352c352c352c352c352c352c352c352c352c352c352c,
  0x20202020352c352c352c352c352c352c352c352c352c352c352c352c352c352c352c352c,
  0x20202020362c382c362c362c362c362c362c382c362c382c382c382c382c382c362c382c,
  0x20202020382c352c352c352c352c352c352c352c302c302c302c302c307834392c307838392c307863392c30783130392c,
  0x2020202030783134392c30783138392c30783163392c30783230392c30783234392c30783238392c307831372c307831372c307831372c307831372c307831372c307831372c352c382c362c362c,
  0x20202020362c362c382c382c362c362c382c362c362c362c352c352c307834392c307838392c307863392c30783130392c,
  0x2020202030783134392c30783138392c30783163392c30783230392c30783234392c30783238392c352c352c352c352c352c352c362c362c382c352c,
  0x20202020352c352c352c352c352c352c352c352c352c352c352c352c352c352c352c352c,
  0x20202020352c352c352c352c352c352c352c352c352c352c352c352c352c352c362c382c,
  0x20202020362c362c382c382c382c362c382c362c362c362c382c382c302c302c302c302c,
  0x20202020302c302c302c302c307831372c307831372c307831372c307831372c307834392c307838392c307863392c30783130392c30783134392c30783138392c30783163392c30783230392c,
  0x2020202030783234392c30783238392c302c302c302c352c352c352c307834392c307838392c307863392c30783130392c30783134392c30783138392c30783163392c30783230392c,
  0x2020202030783234392c30783238392c352c352c352c352c352c352c382c382c382c382c382c382c382c382c,
  0x20202020362c362c362c362c362c362c362c362c382c382c362c362c302c302c302c307831372c,
  0x20202020307831372c307831372c307831372c307831372c352c352c352c352c352c352c352c352c352c352c352c352c,
  0x20202020352c352c352c352c352c352c352c352c352c352c352c352c342c342c342c342c,
  0x20202020342c342c307831372c307831372c322c322c322c322c322c322c322c322c322c302c302c302c,
  0x20202020302c302c302c302c312c312c312c312c312c312c312c312c312c312c312c312c,
  0x20202020312c312c312c312c312c312c312c312c312c312c312c312c312c312c312c302c,
  0x20202020302c312c312c312c307831372c307831372c307831372c307831372c307831372c307831372c307831372c307831372c302c302c302c302c,
  0x20202020302c302c302c302c362c362c362c307831372c362c362c362c362c362c362c362c362c,
  0x20202020362c362c362c362c362c382c362c362c362c362c362c362c362c352c352c352c,
  0x20202020352c362c352c352c352c352c352c352c362c352c352c382c362c362c352c302c,
  0x20202020302c302c302c302c322c322c322c322c322c322c322c322c322c322c322c322c,
  0x20202020342c342c342c342c342c342c342c342c342c342c342c342c342c342c342c342c,
  0x20202020342c342c342c342c342c342c342c342c342c342c342c342c342c342c342c342c,
  0x20202020342c342c342c322c322c322c322c322c322c322c322c322c322c322c322c322c,
  0x20202020342c322c322c322c322c322c322c322c322c322c322c322c322c322c322c322c,
  0x20202020322c322c322c322c322c322c322c322c322c322c322c322c322c322c322c342c,
  0x20202020342c342c342c342c362c362c362c362c362c362c362c362c362c362c362c362c,
  0x20202020362c362c362c362c362c362c362c362c362c362c362c362c362c362c302c362c,
  0x20202020362c362c362c362c312c322c312c322c312c322c312c322c312c322c312c322c,
  0x20202020312c322c312c322c312c322c312c322c312c322c322c322c322c322c322c322c,
  0x20202020322c322c312c322c322c322c322c322c322c322c322c322c312c312c312c312c,
  0x20202020312c307831612c307831612c307831612c302c302c322c322c322c302c322c322c312c312c312c312c,
  0x20202020332c307831612c307831612c302c322c322c322c322c322c322c322c322c312c312c312c312c,
  0x20202020312c312c312c312c322c322c322c322c322c322c302c302c312c312c312c312c,
  0x20202020312c312c302c302c322c322c322c322c322c322c322c322c312c312c312c312c,
  0x20202020312c312c312c312c322c322c322c322c322c322c322c322c312c312c312c312c,
  0x20202020312c312c312c312c322c322c322c322c322c322c302c302c312c312c312c312c,
  0x20202020312c312c302c302c322c322c322c322c322c322c322c322c302c312c302c312c,
  0x20202020302c312c302c312c322c322c322c322c322c322c322c322c312c312c312c312c,
  0x20202020312c312c312c312c322c322c322c322c322c322c322c322c322c322c322c322c,
  0x20202020322c322c302c302c322c322c322c322c322c322c322c322c332c332c332c332c,
  0x20202020332c332c332c332c322c322c322c322c322c322c322c322c332c332c332c332c,
  0x20202020332c332c332c332c322c322c322c322c322c302c322c322c312c312c312c312c,
  0x20202020332c307831612c322c307831612c307831612c307831612c322c322c322c302c322c322c312c312c312c312c,
  0x20202020332c307831612c307831612c307831612c322c322c322c322c302c302c322c322c312c312c312c312c,
  0x20202020302c307831612c307831612c307831612c307831362c307831372c307831372c307831372c307831382c307831342c307831352c307831372c307831372c307831372c307831372c307831372c,
  0x20202020307831372c307831372c307831372c307831372c307831372c307831372c307831382c307831372c307831362c307831372c307831372c307831372c307831372c307831372c307831372c307831372c,
  0x20202020307831372c307831372c307831372c3078632c307831302c307831302c307831302c307831302c307831302c302c307831302c307831302c307831302c307831302c307831302c307831302c,
  0x20202020307831302c307831302c307831302c307831302c30783263622c342c302c302c30783363622c30783430622c30783434622c30783438622c30783463622c30783530622c307831382c307831382c,
  0x20202020307831382c307831342c307831352c342c3078632c3078632c3078632c3078632c3078632c3078632c3078632c3078632c3078632c3078632c3078632c307831302c,
  0x20202020307831302c307831302c307831302c307831302c307831332c307831332c307831332c307831332c307831332c307831332c307831372c307831372c307831632c307831642c307831342c307831632c,
  0x20202020307831632c307831642c307831342c307831632c307831372c307831372c307831372c307831372c307831372c307831372c307831372c307831372c3078642c3078652c307831302c307831302c,
  0x20202020307831302c307831302c307831302c3078632c307831372c307831372c307831372c307831372c307831372c307831372c307831372c307831372c307831372c307831632c307831642c307831372c,
  0x20202020307831372c307831372c307831372c307831362c30783263622c30783330622c30783334622c30783338622c30783363622c30783430622c30783434622c30783438622c30783463622c30783530622c307831382c307831382c,
  0x20202020307831382c307831342c307831352c302c342c342c342c342c342c342c342c342c342c342c342c342c,
  0x20202020342c302c302c302c307831392c307831392c307831392c307831392c307831392c307831392c307831392c307831392c307831392c307831392c307831392c307831392c,
  0x20202020307831392c307831392c307831392c307831392c307831392c307831392c307831392c307831392c307831392c307831392c307831392c307831392c307831392c307831392c307831392c307831392c,
  0x20202020307831392c307831392c307831392c307831392c302c302c302c302c302c302c302c302c302c302c302c302c,
  0x20202020302c302c302c302c362c362c362c362c362c362c362c362c362c362c362c362c,
  0x20202020362c372c372c372c372c362c372c372c372c362c362c362c362c362c362c362c,
  0x20202020362c362c362c362c362c302c302c302c302c302c302c302c302c302c302c302c,
  0x20202020302c302c302c302c307831622c307831622c307831622c307831622c312c307831622c312c307831622c312c307831622c312c312c,
  0x20202020312c312c307831622c322c312c312c312c312c322c352c352c352c352c322c307831622c307831622c,
  0x20202020322c322c312c312c307831382c307831382c307831382c307831382c307831382c312c322c322c322c322c307831622c307831382c,
  0x20202020307831622c307831622c322c307831622c3078333538622c3078333630622c3078333634622c3078333438622c3078333838622c3078333530622c3078333930622c3078336430622c3078343130622c3078333534622c3078343534622c3078333563622c,
  0x202020203078336463622c3078343563622c3078346463622c30783538622c307831622c307831622c312c307831622c307831622c307831622c307831622c312c307831622c307831622c322c312c,
  0x20202020312c312c322c322c312c312c312c322c307831622c312c307831622c307831622c307831382c312c312c312c,
  0x20202020312c312c307831622c307831622c30783538612c30783563612c30783630612c30783634612c30783638612c30783663612c30783730612c30783734612c30783738612c30783763612c30783830612c30783834612c,
  0x202020203078313163612c3078316534612c3078393830612c3078373834612c30783538612c30783563612c30783630612c30783634612c30783638612c30783663612c30783730612c30783734612c30783738612c30783763612c30783830612c30783834612c,
  0x202020203078313163612c3078316534612c3078393830612c3078373834612c3078373834612c3078393834612c3078373838612c312c322c30783663612c3078313163612c3078393838612c3078373863612c30783534622c307831622c307831622c,
  0x20202020302c302c302c302c307831382c307831382c307831382c307831382c307831382c307831622c307831622c307831622c307831622c307831622c307831382c307831382c,
  0x20202020307831622c307831622c307831622c307831622c307831622c307831622c307831622c307831622c307831622c307831622c307831622c307831622c307831622c307831622c307831622c307831622c,
  0x20202020307831622c307831622c307831622c307831622c307831382c307831382c307831382c307831382c307831382c307831382c307831382c307831382c307831382c307831382c307831382c307831382c,
  0x20202020307831382c307831622c307831622c307831382c307831622c307831622c307831382c307831622c307831622c307831622c307831622c307831622c307831622c307831622c307831382c307831622c,
  0x20202020307831622c307831622c307831622c307831622c307831622c307831622c307831622c307831622c307831622c307831622c307831622c307831622c307831622c307831622c307831622c307831622c,
  0x20202020307831622c307831622c307831382c307831382c307831622c307831622c307831382c307831622c307831382c307831622c307831622c307831622c307831622c307831622c307831622c307831622c,
  0x20202020307831622c307831622c307831622c307831622c307831382c307831382c307831382c307831382c307831382c307831382c307831382c307831382c307831382c307831382c307831382c307831382c,
  0x20202020307831382c307831382c307831382c307831382c307831382c307831382c307831382c307831382c307831382c307831382c307831382c307831382c307831382c307831382c307831382c307831382c,
  0x20202020307831382c307831382c307831382c307831382c307831622c307831622c307831622c307831622c307831622c307831622c307831622c307831622c307831342c307831352c307831342c307831352c,
  0x20202020307831622c307831622c307831622c307831622c307831622c307831622c307831622c307831622c307831622c307831622c307831622c307831622c307831622c307831622c307831622c307831622c,
  0x20202020307831622c307831622c307831622c307831622c307831382c307831382c307831622c307831622c307831622c307831622c307831622c307831622c307831622c307831342c307831352c307831622c,
  0x20202020307831622c307831622c307831622c307831622c307831622c307831622c307831622c307831622c307831622c307831622c307831622c307831622c307831622c307831622c307831622c307831622c,
  0x20202020307831622c307831622c307831622c307831622c307831622c307831622c307831622c307831622c307831622c307831622c307831622c307831622c307831382c307831622c307831622c307831622c,
  0x20202020307831622c307831622c307831622c307831622c307831622c307831622c307831622c307831622c307831622c307831622c307831622c307831622c307831622c307831622c307831622c307831622c,
  0x20202020307831622c307831622c307831622c307831622c307831622c307831622c307831622c307831622c307831622c307831622c307831622c307831382c307831382c307831382c307831382c307831382c,
  0x20202020307831382c307831382c307831382c307831382c307831382c307831382c307831382c307831382c307831382c307831382c307831382c307831382c307831382c307831382c307831382c307831382c,
  0x20202020307831622c307831622c307831622c307831622c307831622c307831622c307831622c307831622c307831622c307831622c307831622c307831622c307831622c307831622c307831622c307831622c,
  0x20202020307831622c307831622c307831622c307831622c307831622c307831622c307831622c307831622c307831622c307831622c307831622c307831622c307831382c307831382c307831382c307831382c,
  0x20202020307831382c307831382c307831622c307831622c307831622c307831622c307831622c307831622c307831622c307831622c307831622c307831622c307831622c307831622c307831622c307831622c,
  0x20202020307831622c307831622c307831622c307831622c307831622c307831622c307831622c307831622c307831622c307831622c307831622c307831622c307831622c307831622c307831622c307831622c,
  0x20202020307831622c307831622c307831622c302c302c302c302c302c302c302c302c302c302c302c302c302c,
  0x20202020302c302c302c302c302c302c302c302c302c302c302c302c307831622c307831622c307831622c307831622c,
  0x20202020307831622c307831622c307831622c307831622c307831622c307831622c30783263622c30783830622c30783834622c30783838622c30783863622c30783930622c30783934622c30783938622c30783963622c30786130622c,
  0x2020202030786134622c30783330622c30783334622c30783338622c30783363622c30783430622c30783434622c30783438622c30783463622c30783530622c30783763622c30783263622c30783330622c30783334622c30783338622c30783363622c,
  0x2020202030783430622c30783434622c30783438622c30783463622c30783530622c30783763622c30783830622c30783834622c30783838622c30783863622c30783930622c30783934622c30783938622c30783963622c30786130622c30786134622c,
  0x2020202030783330622c30783334622c30783338622c30783363622c30783430622c30783434622c30783438622c30783463622c30783530622c30783763622c30783830622c30783834622c30783838622c30783863622c30783930622c30783934622c,
  0x2020202030783938622c30783963622c30786130622c30786134622c307831622c307831622c307831622c307831622c307831622c307831622c307831622c307831622c307831622c307831622c307831622c307831622c,
  0x20202020307831622c307831622c307831622c307831622c307831622c307831622c307831622c307831622c307831622c307831622c307831622c307831622c307831382c307831382c307831382c307831382c,
  0x20202020307831382c307831382c307831382c307831382c307831622c307831622c307831622c307831622c307831622c307831622c307831622c307831622c307831622c307831622c307831622c307831622c,
  0x20202020307831622c307831622c307831622c307831622c307831622c307831622c307831622c307831622c307831622c307831622c307831622c307831382c307831622c307831622c307831622c307831622c,
  0x20202020307831622c307831622c307831622c307831622c307831622c307831382c307831622c307831622c307831622c307831622c307831622c307831622c307831622c307831622c307831622c307831622c,
  0x20202020307831622c307831622c307831622c307831622c307831622c307831622c307831622c307831622c307831622c307831622c307831622c307831622c307831622c307831622c307831622c307831622c,
  0x20202020307831622c307831622c307831622c307831622c307831622c307831622c307831622c307831382c307831622c307831622c307831622c307831622c307831622c307831622c307831622c307831622c,
  0x20202020307831622c307831622c307831622c307831622c307831622c307831622c307831622c307831622c307831342c307831352c307831342c307831352c307831342c307831352c307831342c307831352c,
  0x20202020307831342c307831352c307831342c307831352c307831342c307831352c30783330622c30783334622c30783338622c30783363622c30783430622c30783434622c30783438622c30783463622c30783530622c30783763622c,
  0x2020202030783330622c30783334622c30783338622c30783363622c30783430622c30783434622c30783438622c30783463622c30783530622c30783763622c30783330622c30783334622c30783338622c30783363622c30783430622c30783434622c,
  0x2020202030783438622c30783463622c30783530622c30783763622c307831622c307831622c307831622c307831622c307831622c307831622c307831622c307831622c307831622c307831622c307831622c307831622c,
  0x20202020307831382c307831382c307831382c307831382c307831382c307831342c307831352c307831382c307831382c307831382c307831382c307831382c307831382c307831382c307831382c307831382c,
  0x20202020307831382c307831382c307831382c307831382c307831382c307831382c307831382c307831382c307831382c307831382c307831382c307831382c307831382c307831382c307831382c307831382c,
  0x20202020307831382c307831382c307831342c307831352c307831342c307831352c307831342c307831352c307831342c307831352c307831342c307831352c307831382c307831382c307831382c307831382c,
  0x20202020307831382c307831382c307831382c307831382c307831382c307831382c307831382c307831382c307831382c307831382c307831382c307831382c307831382c307831382c307831382c307831342c,
  0x20202020307831352c307831342c307831352c307831342c307831352c307831342c307831352c307831342c307831352c307831342c307831352c307831342c307831352c307831342c307831352c307831342c,
  0x20202020307831352c307831342c307831352c307831342c307831352c307831382c307831382c307831382c307831382c307831382c307831382c307831382c307831382c307831382c307831382c307831382c,
  0x20202020307831382c307831382c307831382c307831382c307831382c307831382c307831382c307831382c307831382c307831382c307831382c307831382c307831382c307831382c307831382c307831382c,
  0x20202020307831342c307831352c307831342c307831352c307831382c307831382c307831382c307831382c307831382c307831382c307831382c307831382c307831382c307831382c307831382c307831382c,
  0x20202020307831382c307831382c307831382c307831382c307831382c307831382c307831382c307831382c307831382c307831382c307831382c307831382c307831382c307831382c307831382c307831382c,
  0x20202020307831342c307831352c307831382c307831382c307831622c307831622c307831622c307831622c307831622c307831622c307831622c307831622c307831622c307831622c307831622c307831622c,
  0x20202020307831622c307831622c307831622c307831622c307831382c307831382c307831382c307831382c307831382c307831382c307831382c307831382c307831382c307831382c307831382c307831382c,
  0x20202020307831382c307831382c307831382c307831382c307831382c307831622c307831622c307831382c307831382c307831382c307831382c307831382c307831382c307831622c307831622c307831622c,
  0x20202020307831622c307831622c307831622c307831622c307831622c307831622c307831622c307831622c307831622c307831622c307831622c307831622c307831622c307831622c307831622c307831622c,
  0x20202020307831622c307831622c307831622c307831622c302c302c307831622c307831622c307831622c307831622c307831622c307831622c307831622c307831622c307831622c307831622c,
  0x20202020307831622c307831622c307831622c307831622c307831622c307831622c307831622c307831622c307831622c307831622c307831622c307831622c307831622c307831622c302c307831622c,
  0x20202020307831622c307831622c307831622c307831622c307831622c307831622c307831622c307831622c322c322c322c322c322c322c322c322c,
  0x20202020322c322c322c322c322c322c322c322c322c322c322c322c322c322c322c322c,
  0x20202020322c322c322c322c322c322c322c302c312c312c312c312c312c312c312c312c,
  0x20202020312c312c312c312c312c312c312c302c322c322c322c322c322c322c322c322c,
  0x20202020322c322c322c322c322c322c322c322c312c322c312c312c312c322c322c312c,
  0x20202020322c312c322c312c322c312c312c312c312c322c312c322c322c312c322c322c,
  0x20202020322c322c322c322c342c342c312c312c312c322c312c322c322c307831622c307831622c307831622c,
  0x20202020307831622c307831622c307831622c312c322c312c322c362c362c362c312c322c302c302c302c302c,
  0x20202020302c307831372c307831372c307831372c307831372c3078333434622c307831372c307831372c322c322c322c322c322c322c302c322c,
  0x20202020302c302c302c302c302c322c302c302c352c352c352c352c352c352c352c352c,
  0x20202020352c352c352c352c352c352c352c352c302c302c302c302c302c302c302c342c,
  0x20202020307831372c302c302c302c302c302c302c302c302c302c302c302c302c302c302c362c,
  0x20202020352c352c352c352c352c352c352c302c352c352c352c352c352c352c352c302c,
  0x20202020352c352c352c352c352c352c352c302c352c352c352c352c352c352c352c302c,
  0x20202020352c352c352c352c352c352c352c352c352c352c352c352c352c352c352c352c,
  0x20202020352c352c352c352c352c352c352c302c302c302c302c302c302c302c302c302c,
  0x20202020307831372c307831372c307831632c307831642c307831632c307831642c307831372c307831372c307831372c307831632c307831642c307831372c307831632c307831642c307831372c307831372c,
  0x20202020307831372c307831372c307831372c307831372c307831372c307831372c307831372c307831332c307831372c307831372c307831332c307831372c307831632c307831642c307831372c307831372c,
  0x20202020307831632c307831642c307831342c307831352c307831342c307831352c307831342c307831352c307831342c307831352c307831372c307831372c307831372c307831372c307831372c342c,
  0x20202020307831372c307831372c307831372c307831372c307831372c307831372c307831372c307831372c307831372c307831372c307831332c307831332c307831372c307831372c307831372c307831372c,
  0x20202020307831332c307831372c307831342c307831372c307831372c307831372c307831372c307831372c307831372c307831372c307831372c307831372c307831372c307831372c307831372c307831372c,
  0x20202020307831622c307831622c307831372c302c302c302c302c302c302c302c302c302c302c302c302c302c,
  0x20202020307831622c307831622c307831622c307831622c307831622c307831622c307831622c307831622c307831622c307831622c307831622c307831622c307831622c307831622c307831622c307831622c,
  0x20202020307831622c307831622c307831622c307831622c307831622c307831622c307831622c307831622c307831622c307831622c302c307831622c307831622c307831622c307831622c307831622c,
  0x20202020307831622c307831622c307831622c307831622c307831622c307831622c307831622c307831622c307831622c307831622c307831622c307831622c307831622c307831622c307831622c307831622c,
  0x20202020302c302c302c302c302c302c302c302c302c302c302c302c307831622c307831622c307831622c307831622c,
  0x20202020307831622c307831622c307831622c307831622c307831622c307831622c307831622c307831622c307831622c307831622c307831622c307831622c307831622c307831622c307831622c307831622c,
  0x20202020307831622c307831622c302c302c302c302c302c302c302c302c302c302c302c302c302c302c,
  0x20202020302c302c302c302c307831622c307831622c307831622c307831622c307831622c307831622c307831622c307831622c307831622c307831622c307831622c307831622c,
  0x20202020302c302c302c302c307831622c30783538612c30783563612c30783630612c30783634612c30783638612c30783663612c30783730612c30783734612c30783738612c362c362c,
  0x20202020362c362c382c382c307831332c342c342c342c342c342c307831622c307831622c30783763612c30786134612c30786363612c342c,
  0x20202020352c307831372c307831622c307831622c3078632c307831372c307831372c307831372c307831622c342c352c30783534612c307831342c307831352c307831342c307831352c,
  0x20202020307831342c307831352c307831342c307831352c307831342c307831352c307831622c307831622c307831342c307831352c307831342c307831352c307831342c307831352c307831342c307831352c,
  0x20202020307831332c307831342c307831352c307831352c352c352c352c352c352c352c352c352c352c352c352c352c,
  0x20202020352c352c352c352c352c352c352c352c352c352c352c302c302c362c362c307831612c,
  0x20202020307831612c342c342c352c352c352c352c352c352c352c352c352c352c352c352c352c,
  0x20202020352c352c352c352c352c352c352c352c352c352c352c352c352c352c352c307831372c,
  0x20202020342c342c342c352c302c302c302c302c302c352c352c352c352c352c352c352c,
  0x20202020352c352c352c352c352c352c352c352c352c352c352c352c352c352c352c352c,
  0x20202020352c352c352c352c302c352c352c352c352c352c352c352c352c352c352c352c,
  0x20202020352c352c352c352c352c352c352c302c307831622c307831622c30783538622c30783563622c30783630622c30783634622c307831622c307831622c,
  0x20202020307831622c307831622c307831622c307831622c307831622c307831622c307831622c307831622c302c302c302c302c302c302c302c302c,
  0x20202020302c302c302c302c352c352c352c352c352c352c352c352c352c352c352c352c,
  0x20202020352c352c352c352c30783538622c30783563622c30783630622c30783634622c30783638622c30783663622c30783730622c30783734622c30783738622c30783763622c307831622c307831622c,
  0x20202020307831622c307831622c307831622c307831622c307831622c307831622c307831622c307831622c307831622c307831622c307831622c307831622c307831622c307831622c307831622c307831622c,
  0x20202020307831622c307831622c307831622c307831622c30783763622c30786134622c30786363622c30786634622c3078313163622c3078313434622c3078313663622c3078313934622c307831622c30786138622c30786163622c30786230622c,
  0x2020202030786234622c30786238622c30786263622c30786330622c30786334622c30786338622c30786363622c30786430622c30786434622c30786438622c30786463622c30786530622c307831622c307831622c307831622c307831622c,
  0x20202020307831622c307831622c307831622c307831622c307831622c307831622c307831622c307831622c307831622c307831622c307831622c307831622c307831622c30786534622c30786538622c30786563622c]

/-- UnicodeData/CharPropsData.py:776-1031 the lines. -/
def charText4 : List Nat :=
 [0x2020202030786630622c30786634622c30786638622c30786663622c3078313030622c3078313034622c3078313038622c3078313063622c3078313130622c3078313134622c3078313138622c3078313163622c352c352c352c352c,
  0x20202020352c30783638352c352c352c352c352c352c352c352c352c352c352c352c352c352c352c,
  0x20202020352c352c352c352c352c352c352c352c352c352c352c352c352c352c352c30783563352c,
  0x20202020352c352c352c352c352c352c352c352c352c352c352c352c352c352c352c352c,
  0x20202020352c352c352c352c352c352c352c352c352c352c352c352c352c352c30783638352c352c,
  0x20202020352c352c352c352c352c352c352c352c352c352c352c352c352c352c352c352c,
  0x20202020352c352c352c352c352c30783730352c352c352c352c352c352c352c352c352c352c352c,
  0x20202020352c352c352c352c352c352c352c352c30783538352c352c352c30783730352c352c352c352c3078373838352c,
  0x20202020352c30783630352c352c352c352c352c352c352c352c352c352c352c352c352c352c352c,
  0x20202020352c352c352c352c352c352c352c352c352c352c352c352c352c352c352c352c,
  0x20202020352c30783738352c352c352c352c352c352c352c352c352c352c352c352c352c352c352c,
  0x2020202030783563352c352c352c352c352c352c352c352c30783638352c352c30783634352c352c352c352c352c352c,
  0x20202020352c352c352c352c352c352c352c352c352c352c352c352c352c352c352c352c,
  0x20202020352c352c352c352c352c352c352c352c352c352c352c3078373938352c30783763352c352c352c352c,
  0x20202020352c352c352c352c352c352c352c352c352c352c352c352c352c352c352c352c,
  0x20202020352c352c352c352c352c352c352c352c352c352c352c3078373834352c352c352c352c352c,
  0x20202020352c352c352c352c30783630352c352c352c352c352c352c352c352c352c352c352c352c,
  0x20202020352c352c352c352c352c352c352c352c352c352c352c352c352c30783638352c352c352c,
  0x20202020352c352c352c352c352c352c352c352c352c352c352c352c352c352c352c352c,
  0x202020203078316534352c352c352c352c352c352c352c352c352c352c352c352c352c352c352c352c,
  0x202020203078373938352c352c352c352c352c352c352c352c352c352c352c352c352c352c352c352c,
  0x20202020352c352c352c352c352c352c352c352c352c352c352c352c352c352c3078376138352c352c,
  0x20202020352c352c352c352c352c352c352c352c352c352c352c352c352c352c352c352c,
  0x20202020352c352c352c352c352c352c352c352c352c30783563352c352c30783734352c352c30783663352c352c352c,
  0x20202020352c352c352c352c352c352c352c352c352c352c352c352c352c352c352c352c,
  0x20202020352c30783763352c352c3078373834352c30786134352c30786363352c352c352c352c352c352c352c30786634352c352c352c352c,
  0x20202020352c352c352c352c352c352c352c352c352c352c352c352c352c352c352c352c,
  0x20202020352c30783630352c30783630352c30783630352c30783630352c352c352c352c352c352c352c352c352c352c352c352c,
  0x20202020352c352c352c352c352c352c352c352c352c352c352c352c352c352c352c352c,
  0x20202020352c352c352c30783634352c352c352c352c352c352c352c352c352c352c352c352c352c,
  0x20202020352c352c352c352c352c30783538352c352c352c352c352c352c352c352c30783538352c352c352c,
  0x20202020352c352c352c352c352c352c352c352c352c352c352c352c352c352c352c352c,
  0x20202020352c352c352c352c352c352c352c352c352c352c30783538352c352c352c352c352c352c,
  0x20202020352c352c352c352c352c352c352c352c352c352c352c352c352c352c352c352c,
  0x20202020352c352c352c352c352c352c352c352c352c352c30783738352c30786134352c352c352c352c352c,
  0x20202020352c352c352c352c352c352c352c352c30783538352c30783563352c30783630352c352c30783563352c352c352c352c,
  0x20202020352c352c352c352c352c352c352c352c352c352c352c352c352c352c352c352c,
  0x20202020352c352c352c352c352c352c352c352c352c352c352c352c352c352c30783763352c352c,
  0x20202020352c352c352c352c352c352c352c352c352c352c352c352c30783734352c352c352c352c,
  0x20202020352c352c352c352c352c352c352c352c352c352c352c352c352c352c352c352c,
  0x20202020352c352c30783730352c352c352c352c352c352c352c352c352c352c352c352c352c352c,
  0x20202020352c352c352c352c352c352c352c352c352c352c352c352c352c352c30783738352c352c,
  0x20202020352c352c352c352c352c352c352c352c352c352c352c352c352c352c352c352c,
  0x20202020352c352c352c352c352c352c352c352c352c352c352c352c352c352c3078316534352c352c,
  0x20202020352c352c352c352c352c352c30783634352c352c352c352c352c352c352c352c352c352c,
  0x20202020352c352c352c352c352c352c352c352c352c352c352c352c352c352c352c352c,
  0x202020203078373838352c352c352c352c352c352c352c352c352c352c352c352c352c352c352c352c,
  0x20202020352c352c352c352c352c352c30783563352c352c352c352c352c30783563352c352c352c352c352c,
  0x20202020352c352c352c352c352c352c352c352c352c352c352c352c30783563352c352c352c352c,
  0x20202020352c352c352c352c352c352c352c352c352c352c352c352c352c3078373834352c352c352c,
  0x20202020352c352c352c352c352c352c352c352c352c352c352c352c352c352c352c352c,
  0x20202020352c352c352c352c352c352c352c352c352c352c352c352c352c352c30783663352c352c,
  0x20202020352c352c352c352c3078316534352c352c352c352c352c352c352c352c352c352c352c352c,
  0x20202020352c352c352c352c352c352c352c352c352c352c352c352c352c352c352c352c,
  0x2020202030783663352c352c352c352c352c352c352c352c352c352c352c352c352c352c352c352c,
  0x20202020352c352c352c352c352c352c352c352c352c352c30783534352c352c352c352c352c352c,
  0x20202020352c352c352c352c352c352c352c352c352c302c302c302c307831622c307831622c307831622c307831622c,
  0x20202020307831622c307831622c307831622c307831622c307831622c307831622c307831622c307831622c307831622c307831622c307831622c307831622c352c352c352c352c,
  0x20202020352c352c352c352c352c352c352c352c352c352c352c352c352c352c352c352c,
  0x20202020352c342c352c352c352c352c352c352c352c352c352c352c307831622c307831622c307831622c307831622c,
  0x20202020307831622c307831622c307831622c302c302c302c302c302c302c302c302c302c352c352c352c352c,
  0x20202020352c352c352c352c352c352c352c352c352c352c352c352c342c307831372c307831372c307831372c,
  0x20202020352c352c352c352c352c352c352c352c352c352c352c352c352c352c352c352c,
  0x20202020307834392c307838392c307863392c30783130392c30783134392c30783138392c30783163392c30783230392c30783234392c30783238392c352c352c302c302c302c302c,
  0x20202020302c302c302c302c302c302c302c302c302c302c302c302c302c302c302c302c,
  0x20202020312c322c312c322c312c322c312c322c312c322c312c322c312c322c312c322c,
  0x20202020312c322c312c322c312c322c312c322c312c322c312c322c342c342c362c362c,
  0x20202020312c322c312c322c312c322c312c322c312c322c312c322c312c322c352c362c,
  0x20202020372c372c372c307831372c362c362c362c362c362c362c362c362c362c362c307831372c342c,
  0x20202020352c352c352c352c352c352c30783538612c30783563612c30783630612c30783634612c30783638612c30783663612c30783730612c30783734612c30783738612c30783534612c,
  0x20202020362c362c307831372c307831372c307831372c307831372c307831372c307831372c302c302c302c302c302c302c302c302c,
  0x20202020307831612c307831612c307831612c307831612c307831612c307831612c307831612c307831612c307831612c307831612c307831612c307831612c307831612c307831612c307831612c307831612c,
  0x20202020307831612c307831612c307831612c307831612c307831612c307831612c307831612c342c342c342c342c342c342c342c342c342c,
  0x20202020302c302c302c302c302c302c302c302c302c302c302c302c302c302c302c302c,
  0x20202020302c302c302c302c302c312c322c352c342c342c322c352c352c352c352c352c,
  0x20202020307831612c307831612c312c322c312c322c312c322c312c322c312c322c312c322c312c322c,
  0x20202020322c322c312c322c312c322c312c322c312c322c312c322c312c322c312c322c,
  0x20202020312c322c312c322c342c322c322c322c322c322c322c322c322c312c322c312c,
  0x20202020322c312c312c322c312c322c312c322c312c322c312c322c342c307831612c307831612c312c,
  0x20202020322c312c322c352c312c322c312c322c322c322c312c322c312c322c312c322c,
  0x20202020312c322c312c322c312c322c312c312c312c312c312c322c312c312c312c312c,
  0x20202020312c322c312c322c312c322c312c322c312c322c312c322c302c302c312c322c,
  0x20202020312c312c312c312c322c312c322c302c302c302c302c302c302c302c302c302c,
  0x20202020302c302c302c302c302c302c302c302c302c302c302c302c352c352c362c352c,
  0x20202020352c352c362c352c352c352c352c362c352c352c352c352c352c352c352c352c,
  0x20202020352c352c352c352c352c352c352c352c352c352c352c352c352c352c352c382c,
  0x20202020382c362c362c382c307831622c307831622c307831622c307831622c362c302c302c302c3078333463622c3078333434622c3078336363622c3078333763622c,
  0x202020203078333563622c3078336663622c307831622c307831622c307831392c307831622c302c302c302c302c302c302c352c352c352c352c,
  0x20202020352c352c352c352c352c352c352c352c352c352c352c352c352c352c352c352c,
  0x20202020307831372c307831372c307831372c307831372c302c302c302c302c302c302c302c302c382c382c382c382c,
  0x20202020362c362c302c302c302c302c302c302c302c302c307831372c307831372c307834392c307838392c307863392c30783130392c,
  0x2020202030783134392c30783138392c30783163392c30783230392c30783234392c30783238392c302c302c302c302c302c302c382c382c352c352c,
  0x20202020352c352c352c352c352c352c352c352c352c352c352c352c352c352c352c352c,
  0x20202020352c352c352c352c352c352c352c352c352c352c352c352c382c382c382c382c,
  0x20202020382c382c382c382c382c382c382c382c362c362c362c362c362c362c362c362c,
  0x20202020362c362c362c362c362c362c362c362c362c362c352c352c352c352c352c352c,
  0x20202020307831372c307831372c307831372c352c307831372c352c352c362c352c352c352c352c352c352c362c362c,
  0x20202020362c362c362c362c362c362c307831372c307831372c352c352c352c352c352c352c352c352c,
  0x20202020352c352c352c352c352c352c352c352c352c352c352c362c362c362c362c362c,
  0x20202020362c362c362c362c362c362c382c382c302c302c302c302c302c302c302c302c,
  0x20202020302c302c302c307831372c382c307831372c307831372c307831372c307831372c307831372c307831372c307831372c307831372c307831372c307831372c307831372c,
  0x20202020307831372c307831372c302c342c307834392c307838392c307863392c30783130392c30783134392c30783138392c30783163392c30783230392c30783234392c30783238392c302c302c,
  0x20202020302c302c307831372c307831372c352c352c352c352c352c352c352c352c352c352c352c352c,
  0x20202020352c352c352c352c352c352c352c362c382c382c362c362c362c362c382c382c,
  0x20202020362c362c382c382c352c352c352c352c352c362c342c352c352c352c352c352c,
  0x20202020352c352c352c352c307834392c307838392c307863392c30783130392c30783134392c30783138392c30783163392c30783230392c30783234392c30783238392c352c352c,
  0x20202020352c352c352c302c352c352c352c352c352c352c352c352c352c362c362c362c,
  0x20202020362c362c362c382c382c362c362c382c382c362c362c302c302c302c302c302c,
  0x20202020302c302c302c302c352c352c352c362c352c352c352c352c352c352c352c352c,
  0x20202020362c382c302c302c307834392c307838392c307863392c30783130392c30783134392c30783138392c30783163392c30783230392c30783234392c30783238392c302c302c,
  0x20202020307831372c307831372c307831372c307831372c352c352c352c352c352c352c352c352c352c352c352c352c,
  0x20202020352c352c352c352c342c352c352c352c352c352c352c307831622c307831622c307831622c352c382c,
  0x20202020362c382c352c352c352c352c352c352c352c352c352c352c352c352c352c352c,
  0x20202020352c352c352c352c362c352c362c362c362c352c352c362c362c352c352c352c,
  0x20202020352c352c362c362c352c362c352c302c302c302c302c302c302c302c302c302c,
  0x20202020302c302c302c302c302c302c302c302c302c302c302c302c302c302c302c352c,
  0x20202020352c342c307831372c307831372c352c352c352c352c352c352c352c352c352c352c352c382c,
  0x20202020362c362c382c382c307831372c307831372c352c342c342c382c362c302c302c302c302c302c,
  0x20202020302c302c302c302c302c352c352c352c352c352c352c302c302c352c352c352c,
  0x20202020352c352c352c302c302c352c352c352c352c352c352c302c302c302c302c302c,
  0x20202020302c302c302c302c352c352c352c352c352c352c352c302c352c352c352c352c,
  0x20202020352c352c352c302c322c322c322c322c322c322c322c322c322c322c322c322c,
  0x20202020322c322c322c322c322c322c322c322c322c322c322c322c322c322c322c307831612c,
  0x20202020342c342c342c342c322c322c322c322c322c322c322c322c322c342c307831612c307831612c,
  0x20202020302c302c302c302c322c322c322c322c322c322c322c322c322c322c322c322c,
  0x20202020322c322c322c322c352c352c352c382c382c362c382c382c362c382c382c307831372c,
  0x20202020382c362c302c302c307834392c307838392c307863392c30783130392c30783134392c30783138392c30783163392c30783230392c30783234392c30783238392c302c302c,
  0x20202020302c302c302c302c352c352c352c352c302c302c302c302c302c302c302c302c,
  0x20202020302c302c302c302c352c352c352c352c352c352c352c352c352c352c352c352c,
  0x20202020352c352c352c352c352c352c352c352c352c352c352c352c352c352c352c352c,
  0x20202020302c302c302c302c352c352c352c352c352c352c352c302c302c302c302c352c,
  0x20202020352c352c352c352c352c352c352c352c352c352c352c352c352c352c352c352c,
  0x20202020352c352c352c352c307831322c307831322c307831322c307831322c307831322c307831322c307831322c307831322c307831322c307831322c307831322c307831322c,
  0x20202020307831322c307831322c307831322c307831322c307831322c307831322c307831322c307831322c307831322c307831322c307831322c307831322c307831322c307831322c307831322c307831322c,
  0x20202020307831322c307831322c307831322c307831322c307831312c307831312c307831312c307831312c307831312c307831312c307831312c307831312c307831312c307831312c307831312c307831312c,
  0x20202020307831312c307831312c307831312c307831312c307831312c307831312c307831312c307831312c307831312c307831312c307831312c307831312c307831312c307831312c307831312c307831312c,
  0x20202020307831312c307831312c307831312c307831312c352c352c352c352c352c352c352c352c352c352c352c30783630352c,
  0x20202020352c352c352c352c352c352c352c30783763352c352c352c352c352c30783563352c352c352c352c,
  0x20202020352c352c352c352c352c352c352c352c352c352c352c352c352c352c352c352c,
  0x20202020352c30783663352c352c30783663352c352c352c352c352c352c352c352c352c352c352c352c352c,
  0x20202020352c352c352c352c352c352c352c352c352c352c352c352c352c352c352c352c,
  0x20202020352c30783763352c352c352c352c352c352c352c352c352c352c352c352c352c352c352c,
  0x20202020352c352c302c302c352c352c352c352c352c352c352c352c352c352c352c352c,
  0x20202020352c352c352c352c352c307831382c352c352c352c352c352c352c352c352c352c352c,
  0x20202020352c352c352c302c352c352c352c352c352c302c352c302c352c352c302c352c,
  0x20202020352c302c352c352c352c352c352c352c352c352c352c352c352c352c352c352c,
  0x20202020352c352c352c352c352c352c352c352c352c352c352c352c322c322c322c322c,
  0x20202020322c322c322c302c302c302c302c302c302c302c302c302c302c302c302c322c,
  0x20202020322c322c322c322c302c302c302c302c302c352c362c352c352c352c352c352c,
  0x20202020352c352c352c352c352c352c352c352c352c352c352c352c352c352c307831612c307831612c,
  0x20202020307831612c307831612c307831612c307831612c307831612c307831612c307831612c307831612c307831612c307831612c307831612c307831612c307831612c307831612c302c302c,
  0x20202020302c302c302c302c302c302c302c302c302c302c302c302c302c302c302c352c,
  0x20202020352c352c352c352c352c352c352c352c352c352c352c352c352c352c352c352c,
  0x20202020352c352c352c352c352c352c352c352c352c352c352c352c352c352c307831352c307831342c,
  0x20202020302c302c302c302c302c302c302c302c302c302c302c302c302c302c302c302c,
  0x20202020352c352c352c352c352c352c352c352c352c352c352c352c352c352c352c352c,
  0x20202020302c302c352c352c352c352c352c352c352c352c352c352c352c352c352c352c,
  0x20202020302c302c302c302c302c302c302c302c302c302c302c302c302c302c302c302c,
  0x20202020302c302c302c302c302c302c302c302c352c352c352c352c352c352c352c352c,
  0x20202020352c352c352c352c307831392c307831622c302c302c362c362c362c362c362c362c362c362c,
  0x20202020362c362c362c362c362c362c362c362c307831372c307831372c307831372c307831372c307831372c307831372c307831372c307831342c,
  0x20202020307831352c307831372c302c302c302c302c302c302c362c362c362c362c362c362c362c362c,
  0x20202020362c362c362c362c362c362c362c362c307831372c307831332c307831332c307831362c307831362c307831342c307831352c307831342c,
  0x20202020307831352c307831342c307831352c307831342c307831352c307831342c307831352c307831342c307831352c307831372c307831372c307831342c307831352c307831372c307831372c307831372c,
  0x20202020307831372c307831362c307831362c307831362c307831372c307831372c307831372c302c307831372c307831372c307831372c307831372c307831332c307831342c307831352c307831342c,
  0x20202020307831352c307831342c307831352c307831372c307831372c307831372c307831382c307831332c307831382c307831382c307831382c302c307831372c307831392c307831372c307831372c,
  0x20202020302c302c302c302c352c352c352c352c352c302c352c352c352c352c352c352c,
  0x20202020352c352c352c352c352c352c352c352c352c352c352c352c352c352c352c352c,
  0x20202020352c352c352c352c352c352c352c352c352c302c302c307831302c302c302c352c352c,
  0x20202020352c352c352c352c302c302c352c352c352c352c352c352c302c302c352c352c,
  0x20202020352c352c352c352c302c302c352c352c352c302c302c302c307831392c307831392c307831382c307831612c,
  0x20202020307831622c307831392c307831392c302c307831622c307831382c307831382c307831382c307831382c307831622c307831622c302c302c302c302c302c,
  0x20202020302c302c302c302c302c307831302c307831302c307831302c307831622c307831622c302c302c302c307831372c307831372c307831372c,
  0x20202020307831392c307831372c307831372c307831372c307831342c307831352c307831372c307831382c307831372c307831332c307831372c307831372c307834392c307838392c307863392c30783130392c,
  0x2020202030783134392c30783138392c30783163392c30783230392c30783234392c30783238392c307831372c307831372c307831382c307831382c307831382c307831372c307831612c322c322c322c,
  0x20202020322c322c322c322c322c322c322c322c322c322c322c322c322c322c322c322c,
  0x20202020322c322c322c322c322c322c322c307831342c307831382c307831352c307831382c307831342c307831352c307831372c307831342c307831352c,
  0x20202020307831372c307831372c352c352c352c352c352c352c352c352c352c352c342c352c352c352c,
  0x20202020352c352c352c352c352c352c352c352c352c352c352c352c352c352c352c352c,
  0x20202020352c352c352c352c352c352c352c352c352c352c352c352c352c352c342c342c,
  0x20202020352c352c352c352c352c352c352c352c352c352c352c352c302c352c352c352c,
  0x20202020352c352c352c352c352c352c352c352c352c352c352c352c352c352c352c352c,
  0x20202020352c352c352c302c352c352c352c352c352c352c352c352c352c352c352c352c,
  0x20202020352c352c352c352c352c352c352c302c352c352c302c352c352c352c352c352c,
  0x20202020352c352c352c352c352c352c352c352c352c352c302c302c352c352c352c352c,
  0x20202020352c352c352c352c352c352c352c352c352c352c302c302c352c352c352c352c,
  0x20202020352c352c352c352c352c352c352c352c352c352c352c352c352c352c352c352c,
  0x20202020352c352c352c352c352c352c352c302c302c302c302c302c3078623030622c3078623830622c3078373834622c3078383034622c,
  0x202020203078383834622c3078393034622c3078393834622c3078613034622c3078613834622c3078623034622c3078623834622c3078373838622c3078383038622c3078383838622c3078393038622c3078393838622c3078613038622c3078613838622c3078623038622c3078623838622c,
  0x20202020302c302c302c307831622c307831622c307831622c307831622c307831622c307831622c307831622c307831622c307831622c307831372c307831372c307831372c302c,
  0x20202020302c302c302c30783538622c30783563622c30783630622c30783634622c30783638622c30783663622c30783730622c30783734622c30783738622c30783763622c30786134622c30786363622c30786634622c,
  0x202020203078313163622c3078313434622c3078313663622c3078313934622c3078316263622c3078316534622c3078383030622c3078383830622c3078393030622c3078393830622c3078613030622c3078613830622c30783763612c30783763612c30783763612c30783763612c,
  0x2020202030783763612c30786363612c3078313163612c3078313163612c3078313163612c3078313163612c3078316534612c3078383830612c3078393830612c3078393830612c3078393830612c3078393830612c3078393830612c3078373834612c3078393834612c30783638612c,
  0x202020203078313163612c3078333434622c3078333434622c3078333838622c3078336363622c307831622c307831622c307831622c307831622c307831622c307831622c307831622c307831622c307831622c307831622c307831622c,
  0x20202020307831622c307831622c30783534622c3078333463622c307831622c307831622c307831622c302c307831622c307831622c307831622c307831622c307831622c307831622c307831622c307831622c,
  0x20202020307831622c307831622c307831622c307831622c307831622c302c302c302c3078333463612c3078333434612c30783538612c30783638612c3078313163612c3078393830612c3078393834612c3078393838612c,
  0x2020202030783638612c30783763612c3078313163612c3078316534612c3078393830612c3078373834612c3078393834612c30783638612c30783763612c3078313163612c3078316534612c3078393830612c3078373834612c3078373838612c3078393838612c30783763612c,
  0x2020202030783538612c30783538612c30783538612c30783563612c30783563612c30783563612c30783563612c30783638612c307831622c302c302c302c302c302c302c302c,
  0x20202020302c302c302c302c302c302c302c302c302c302c302c302c302c302c302c302c,
  0x20202020302c302c302c302c302c302c302c302c307831622c307831622c307831622c307831622c307831622c307831622c307831622c307831622c,
  0x20202020307831622c307831622c307831622c307831622c307831622c307831622c307831622c307831622c307831622c307831622c307831622c307831622c307831622c307831622c307831622c307831622c,
  0x20202020307831622c307831622c307831622c307831622c307831622c362c302c302c352c352c352c352c352c352c352c352c,
  0x20202020352c352c352c352c352c352c352c352c352c302c302c302c302c302c302c302c,
  0x20202020302c302c302c302c302c302c302c302c362c30783538622c30783563622c30783630622c30783634622c30783638622c30783663622c30783730622c,
  0x2020202030783734622c30783738622c30783763622c30786134622c30786363622c30786634622c3078313163622c3078313434622c3078313663622c3078313934622c3078316263622c3078316534622c3078383030622c3078383830622c3078393030622c3078393830622c,
  0x202020203078613030622c3078613830622c3078623030622c3078623830622c302c302c302c302c30783538622c30783638622c30783763622c3078313163622c302c302c302c302c,
  0x20202020302c302c302c302c302c352c352c352c352c352c352c352c352c352c352c352c,
  0x20202020352c352c352c352c352c352c352c352c352c3078316263612c352c352c352c352c352c352c,
  0x20202020352c352c3078623830612c302c302c302c302c302c352c352c352c352c352c352c352c352c,
  0x20202020352c352c352c352c352c352c352c352c352c352c352c352c352c352c362c362c,
  0x20202020362c362c362c302c302c302c302c302c352c352c352c352c352c352c352c352c,
  0x20202020352c352c352c352c352c352c352c352c352c352c352c352c352c352c352c352c,
  0x20202020352c352c352c352c352c352c302c307831372c352c352c352c352c302c302c302c302c,
  0x20202020352c352c352c352c352c352c352c352c307831372c30783538612c30783563612c30783763612c30786134612c3078316534612c302c302c,
  0x20202020302c302c302c302c302c302c302c302c322c322c322c322c322c322c322c322c,
  0x20202020322c322c322c322c322c322c322c322c352c352c352c352c352c352c352c352c,
  0x20202020352c352c352c352c352c352c352c352c352c352c352c352c352c352c352c352c,
  0x20202020352c352c352c352c352c352c302c302c307834392c307838392c307863392c30783130392c30783134392c30783138392c30783163392c30783230392c,
  0x2020202030783234392c30783238392c302c302c302c302c302c302c312c312c312c312c312c312c312c312c,
  0x20202020312c312c312c312c312c312c312c312c322c322c322c322c322c322c322c322c,
  0x20202020322c322c322c322c322c322c322c322c322c322c322c322c322c322c322c322c,
  0x20202020322c322c322c322c302c302c302c302c312c312c312c312c312c312c312c312c,
  0x20202020312c312c312c312c312c312c312c312c312c312c312c312c302c302c302c302c,
  0x20202020322c322c322c322c322c322c322c322c352c352c352c352c352c352c352c352c,
  0x20202020302c302c302c302c302c302c302c302c352c352c352c352c352c352c352c352c,
  0x20202020352c352c352c352c352c352c352c352c302c302c302c302c302c302c302c302c,
  0x20202020302c302c302c307831372c302c302c302c302c302c302c302c302c302c302c302c302c,
  0x20202020302c302c302c302c352c352c352c352c352c352c352c352c352c352c352c352c,
  0x20202020352c352c352c352c352c352c352c352c352c352c302c352c352c302c302c302c,
  0x20202020352c302c302c352c352c352c352c352c352c352c302c302c352c302c352c352c,
  0x20202020352c352c352c352c352c352c352c352c352c352c352c352c352c352c352c352c,
  0x20202020352c352c352c352c352c352c302c307831372c30783538622c30783563622c30783630622c30783763622c30786134622c3078316534622c3078373834622c3078373838622c,
  0x20202020352c352c352c352c352c352c352c352c352c352c352c352c352c352c352c352c,
  0x20202020352c352c352c352c352c352c352c307831622c307831622c30783538622c30783563622c30783630622c30783634622c30783638622c30783763622c30786134622c,
  0x20202020302c302c302c302c302c302c302c30783538622c30783563622c30783630622c30783634622c30783634622c30783638622c30783763622c30786134622c3078316534622c,
  0x20202020302c302c302c302c302c302c302c302c302c302c302c302c302c302c302c302c,
  0x20202020352c352c352c352c352c352c352c352c352c352c352c352c352c352c352c352c,
  0x20202020352c352c352c302c352c352c302c302c302c302c302c30783538622c30783638622c30783763622c30786134622c3078316534622c,
  0x20202020352c352c352c352c352c352c352c352c352c352c352c352c352c352c352c352c,
  0x20202020352c352c352c352c352c352c30783538622c30783763622c30786134622c3078316534622c30783563622c30783630622c302c302c302c307831372c,
  0x20202020352c352c352c352c352c352c352c352c352c352c352c352c352c352c352c352c,
  0x20202020352c352c352c352c352c352c352c352c352c352c302c302c302c302c302c307831372c,
  0x202020203078613034622c3078613834622c3078623034622c3078623834622c3078373838622c3078383038622c3078383838622c3078393038622c3078393838622c3078613038622c3078613838622c3078623038622c3078623838622c3078373863622c3078383063622c3078383863622c,
  0x202020203078393063622c3078393863622c3078613063622c3078613863622c3078623063622c3078623863622c3078333663622c3078333534622c3078333463622c3078333438622c3078343663622c3078333434622c3078346563622c3078333838622c3078336363622c3078343534622c,
  0x20202020352c352c352c352c352c352c352c352c352c352c352c352c352c352c352c352c,
  0x20202020352c352c352c352c352c352c352c352c302c302c302c302c3078356563622c3078333434622c352c352c,
  0x2020202030783538622c30783563622c30783630622c30783634622c30783638622c30783663622c30783730622c30783734622c30783738622c30783763622c30786134622c30786363622c30786634622c3078313163622c3078313434622c3078313663622c,
  0x20202020302c302c3078316534622c3078383030622c3078383830622c3078393030622c3078393830622c3078613030622c3078613830622c3078623030622c3078623830622c3078373834622c3078383034622c3078383834622c3078393034622c3078393834622c,
  0x2020202030783330622c30783334622c30783338622c30783363622c30783763622c30786134622c3078316534622c3078373834622c3078333434622c302c302c302c302c302c302c302c,
  0x20202020307831372c307831372c307831372c307831372c307831372c307831372c307831372c307831372c307831372c302c302c302c302c302c302c302c,
  0x20202020352c362c362c362c302c362c362c302c302c302c302c302c362c362c362c362c,
  0x20202020352c352c352c352c302c352c352c352c302c352c352c352c352c352c352c352c,
  0x20202020352c352c352c352c352c352c352c352c352c352c352c352c352c352c352c352c,
  0x20202020352c352c302c302c362c362c362c302c302c302c302c362c352c352c352c352c,
  0x20202020352c352c352c352c352c352c352c352c352c352c352c352c352c352c352c352c,
  0x20202020352c352c352c352c352c352c352c352c352c30783538622c3078313163622c307831372c352c352c352c352c]

/-- UnicodeData/CharPropsData.py:1032-1287 the lines. -/
def charText5 : List Nat :=
 [0x20202020352c352c352c352c352c352c352c352c352c352c352c352c352c352c352c352c,
  0x20202020352c352c352c352c352c352c352c352c352c30783538622c30783763622c30786134622c352c352c352c352c,
  0x20202020352c362c362c302c302c302c302c30783538622c30783638622c30783763622c30786134622c3078316534622c307831372c307831372c307831372c307831372c,
  0x20202020307831372c307831372c307831372c302c302c302c302c302c302c302c302c302c352c352c352c352c,
  0x20202020352c352c352c352c307831622c352c352c352c352c352c352c352c352c352c352c352c,
  0x20202020352c352c352c352c352c352c352c352c352c352c352c352c352c352c302c302c,
  0x20202020302c307831372c307831372c307831372c307831372c307831372c307831372c307831372c352c352c352c352c352c352c352c352c,
  0x20202020352c352c352c352c352c352c352c352c352c352c352c352c352c352c302c302c,
  0x2020202030783538622c30783563622c30783630622c30783634622c30783763622c30786134622c3078316534622c3078373834622c352c352c352c352c352c352c352c352c,
  0x20202020352c352c352c352c352c352c352c352c352c352c352c302c302c302c302c302c,
  0x2020202030783538622c30783563622c30783630622c30783634622c30783763622c30786134622c3078316534622c3078373834622c352c352c352c352c352c352c352c352c,
  0x20202020352c352c352c352c352c352c352c352c352c352c302c302c302c302c302c302c,
  0x20202020302c307831372c307831372c307831372c307831372c302c302c302c302c302c302c302c302c302c302c302c,
  0x20202020302c30783538622c30783563622c30783630622c30783634622c30783763622c30786134622c3078316534622c302c302c302c302c302c302c302c302c,
  0x20202020302c302c302c302c302c302c302c302c352c352c352c352c352c352c352c352c,
  0x20202020352c302c302c302c302c302c302c302c302c302c302c302c302c302c302c302c,
  0x20202020302c302c302c302c302c302c302c302c312c312c312c312c312c312c312c312c,
  0x20202020312c312c312c312c312c312c312c312c312c312c312c302c302c302c302c302c,
  0x20202020302c302c302c302c302c302c302c302c322c322c322c322c322c322c322c322c,
  0x20202020322c322c322c322c322c322c322c322c322c322c322c302c302c302c302c302c,
  0x20202020302c302c30783538622c30783638622c30783763622c3078313163622c3078316534622c3078373834622c352c352c352c352c362c362c362c362c,
  0x20202020302c302c302c302c302c302c302c302c307834392c307838392c307863392c30783130392c30783134392c30783138392c30783163392c30783230392c,
  0x2020202030783234392c30783238392c302c302c302c302c302c302c30783330622c30783334622c30783338622c30783363622c30783430622c30783434622c30783438622c30783463622c,
  0x2020202030783530622c30783763622c30786134622c30786363622c30786634622c3078313163622c3078313434622c3078313663622c3078313934622c3078316263622c3078316534622c3078383030622c3078383830622c3078393030622c3078393830622c3078613030622c,
  0x202020203078613830622c3078623030622c3078623830622c3078333434622c3078333463622c3078333438622c3078333838622c302c352c352c352c352c352c352c352c352c,
  0x20202020352c352c302c362c362c307831332c302c302c352c352c302c302c302c302c302c302c,
  0x20202020302c302c302c302c302c302c302c302c352c352c352c352c352c352c352c352c,
  0x20202020352c352c352c352c352c352c352c352c352c352c352c352c352c352c352c352c,
  0x20202020352c352c352c352c352c30783538622c30783563622c30783630622c30783634622c30783638622c30783763622c30786134622c30786363622c3078316534622c3078333434622c352c,
  0x20202020302c302c302c302c302c302c302c302c352c352c352c352c352c352c352c352c,
  0x20202020352c352c352c352c352c352c352c352c352c352c362c362c362c362c362c362c,
  0x20202020362c362c362c362c362c30783538622c30783763622c30786134622c3078316534622c307831372c307831372c307831372c307831372c307831372c302c302c,
  0x20202020302c302c302c302c352c352c352c352c352c30783538622c30783563622c30783630622c30783634622c30783763622c30786134622c3078316534622c,
  0x20202020302c302c302c302c302c302c302c302c302c302c302c302c302c302c302c302c,
  0x20202020302c302c302c302c3078313434622c3078313663622c3078313934622c3078316263622c3078316534622c3078373834622c307834392c307838392c307863392c30783130392c30783134392c30783138392c,
  0x2020202030783163392c30783230392c30783234392c30783238392c302c302c302c302c302c302c302c302c302c302c302c302c,
  0x20202020302c302c302c362c382c362c382c352c352c352c352c352c352c352c352c352c,
  0x20202020352c352c352c352c352c352c352c352c352c352c352c352c352c352c352c352c,
  0x20202020352c352c352c352c362c362c362c362c362c362c362c307831372c307831372c307831372c307831372c307831372c,
  0x20202020307831372c307831372c302c302c302c302c30783330622c30783334622c30783338622c30783363622c30783430622c30783434622c30783438622c30783463622c30783530622c30783763622c,
  0x2020202030786134622c30786363622c30786634622c3078313163622c352c352c352c352c352c352c352c352c352c352c352c352c,
  0x20202020352c352c352c352c382c382c382c362c362c362c362c382c382c362c362c307831372c,
  0x20202020307831372c307831302c307831372c307831372c307831372c307831372c302c302c302c302c302c302c302c302c302c302c,
  0x20202020302c307831302c302c302c352c352c352c352c352c352c352c352c352c352c352c352c,
  0x20202020352c352c352c352c352c302c302c302c302c302c302c302c307834392c307838392c307863392c30783130392c,
  0x2020202030783134392c30783138392c30783163392c30783230392c30783234392c30783238392c302c302c302c302c302c302c352c352c352c352c,
  0x20202020352c352c352c362c362c362c362c362c382c362c362c362c362c362c362c362c,
  0x20202020362c302c307834392c307838392c307863392c30783130392c30783134392c30783138392c30783163392c30783230392c30783234392c30783238392c307831372c307831372c307831372c307831372c,
  0x20202020352c382c382c352c302c302c302c302c302c302c302c302c352c352c352c352c,
  0x20202020352c352c352c352c352c352c352c352c352c352c352c352c362c362c362c352c,
  0x20202020352c352c352c352c352c352c352c352c352c352c352c352c352c352c352c352c,
  0x20202020352c352c352c352c352c352c352c352c352c352c352c352c352c352c352c362c,
  0x20202020307831372c307831372c352c302c302c302c302c302c302c302c302c302c382c352c352c352c,
  0x20202020352c307831372c307831372c307831372c307831372c362c362c362c362c307831372c382c362c307834392c307838392c307863392c30783130392c,
  0x2020202030783134392c30783138392c30783163392c30783230392c30783234392c30783238392c352c307831372c352c307831372c307831372c307831372c352c352c352c352c,
  0x20202020352c352c352c352c352c352c352c352c352c352c352c352c352c352c352c382c,
  0x20202020382c382c362c362c362c362c362c362c362c362c362c382c302c30783538622c30783563622c30783630622c,
  0x2020202030783634622c30783638622c30783663622c30783730622c30783734622c30783738622c30783763622c30786134622c30786363622c30786634622c3078313163622c3078313434622c3078313663622c3078313934622c3078316263622c3078316534622c,
  0x202020203078373834622c302c302c302c302c302c302c302c302c302c302c302c352c352c352c352c,
  0x20202020352c352c352c352c352c352c352c352c382c382c382c362c362c362c382c382c,
  0x20202020362c382c362c362c307831372c307831372c307831372c307831372c307831372c307831372c362c302c352c352c352c352c,
  0x20202020352c352c352c352c352c352c352c352c352c352c352c352c352c352c302c352c,
  0x20202020352c352c352c352c352c352c352c352c352c352c352c352c352c352c352c302c,
  0x20202020352c302c352c352c352c352c302c352c352c352c352c352c352c352c352c352c,
  0x20202020352c352c352c352c352c352c302c352c352c352c352c352c352c352c352c352c,
  0x20202020352c307831372c302c302c302c302c302c302c352c352c352c352c352c352c352c352c,
  0x20202020352c352c352c352c352c352c352c352c382c382c382c362c362c362c362c362c,
  0x20202020362c362c362c302c302c302c302c302c307834392c307838392c307863392c30783130392c30783134392c30783138392c30783163392c30783230392c,
  0x2020202030783234392c30783238392c302c302c302c302c302c302c352c352c382c382c302c302c362c362c,
  0x20202020362c362c362c362c362c302c302c302c362c362c362c362c362c302c302c302c,
  0x20202020302c302c302c302c302c302c302c302c362c362c382c382c302c352c352c352c,
  0x20202020352c352c352c352c352c302c302c352c352c302c302c352c352c352c352c352c,
  0x20202020352c352c352c352c352c352c352c352c352c302c352c352c352c352c352c352c,
  0x20202020352c302c352c352c302c352c352c352c352c352c302c362c362c352c382c382c,
  0x20202020362c382c382c382c382c302c302c382c382c302c302c382c382c382c302c302c,
  0x20202020352c302c302c302c302c302c302c382c302c302c302c302c302c352c352c352c,
  0x20202020352c352c352c352c352c352c352c352c352c352c352c352c352c352c352c352c,
  0x20202020352c352c352c352c352c382c382c382c362c362c362c362c362c362c362c362c,
  0x20202020382c382c362c362c362c382c362c352c352c352c352c307831372c307831372c307831372c307831372c307831372c,
  0x20202020307834392c307838392c307863392c30783130392c30783134392c30783138392c30783163392c30783230392c30783234392c30783238392c307831372c307831372c302c307831372c362c352c,
  0x20202020352c352c302c302c302c302c302c302c302c302c302c302c302c302c302c302c,
  0x20202020302c302c302c302c302c302c302c302c302c302c302c302c302c302c302c302c,
  0x20202020352c352c352c352c352c352c352c352c352c352c352c352c352c352c352c352c,
  0x20202020382c382c382c362c362c362c362c362c362c382c362c382c382c382c382c362c,
  0x20202020362c382c362c362c352c352c307831372c352c302c302c302c302c302c302c302c302c,
  0x20202020307834392c307838392c307863392c30783130392c30783134392c30783138392c30783163392c30783230392c30783234392c30783238392c302c302c302c302c302c302c,
  0x20202020352c352c352c352c352c352c352c352c352c352c352c352c352c352c352c382c,
  0x20202020382c382c362c362c362c362c302c302c382c382c382c382c362c362c382c362c,
  0x20202020362c307831372c307831372c307831372c307831372c307831372c307831372c307831372c307831372c307831372c307831372c307831372c307831372c307831372c307831372c307831372c,
  0x20202020307831372c307831372c307831372c307831372c307831372c307831372c307831372c307831372c352c352c352c352c362c362c302c302c,
  0x20202020352c352c352c352c352c352c352c352c352c352c352c352c352c352c352c352c,
  0x20202020382c382c382c362c362c362c362c362c362c362c362c382c382c362c382c362c,
  0x20202020362c307831372c307831372c307831372c352c302c302c302c302c302c302c302c302c302c302c302c,
  0x20202020307834392c307838392c307863392c30783130392c30783134392c30783138392c30783163392c30783230392c30783234392c30783238392c302c302c302c302c302c302c,
  0x20202020307831372c307831372c307831372c307831372c307831372c307831372c307831372c307831372c307831372c307831372c307831372c307831372c307831372c302c302c302c,
  0x20202020302c302c302c302c302c302c302c302c302c302c302c302c302c302c302c302c,
  0x20202020307834392c307838392c307863392c30783130392c30783134392c30783138392c30783163392c30783230392c30783234392c30783238392c302c302c302c302c302c302c,
  0x20202020302c302c302c302c302c302c302c302c302c302c302c302c302c302c302c302c,
  0x20202020352c352c352c352c352c352c352c352c352c352c352c362c382c362c382c382c,
  0x20202020362c362c362c362c362c362c382c362c352c302c302c302c302c302c302c302c,
  0x20202020382c382c362c362c362c362c382c362c362c362c362c362c302c302c302c302c,
  0x20202020307834392c307838392c307863392c30783130392c30783134392c30783138392c30783163392c30783230392c30783234392c30783238392c30783763622c30786134622c307831372c307831372c307831372c307831622c,
  0x20202020352c352c352c352c352c352c352c352c352c352c352c352c382c382c382c362c,
  0x20202020362c362c362c362c362c362c362c362c382c362c362c307831372c302c302c302c302c,
  0x20202020307834392c307838392c307863392c30783130392c30783134392c30783138392c30783163392c30783230392c30783234392c30783238392c30783763622c30786134622c30786363622c30786634622c3078313163622c3078313434622c,
  0x202020203078313663622c3078313934622c3078316263622c302c302c302c302c302c302c302c302c302c302c302c302c352c,
  0x20202020382c352c382c362c307831372c307831372c307831372c302c302c302c302c302c302c302c302c302c,
  0x20202020307834392c307838392c307863392c30783130392c30783134392c30783138392c30783163392c30783230392c30783234392c30783238392c302c302c302c302c302c302c,
  0x20202020352c352c352c352c352c352c352c302c302c352c302c302c352c352c352c352c,
  0x20202020352c352c352c352c302c352c352c302c352c352c352c352c352c352c352c352c,
  0x20202020352c352c352c352c352c352c352c352c382c382c382c382c382c382c302c382c,
  0x20202020382c302c302c362c362c382c362c352c362c352c307831372c352c382c302c302c302c,
  0x20202020302c302c302c302c302c302c302c302c302c302c302c302c302c302c302c302c,
  0x20202020302c302c302c302c302c302c302c302c352c352c352c352c352c352c352c352c,
  0x20202020302c302c352c352c352c352c352c352c352c352c352c352c352c352c352c352c,
  0x20202020352c352c352c352c352c352c352c352c352c382c382c382c362c362c362c362c,
  0x20202020302c302c362c362c382c382c382c382c352c352c352c352c352c352c352c352c,
  0x20202020352c352c352c352c352c352c352c352c352c352c352c362c362c362c362c362c,
  0x20202020362c382c352c362c362c362c362c307831372c307831372c307831372c307831372c307831372c307831372c307831372c307831372c362c,
  0x20202020302c302c302c302c302c302c302c302c352c362c362c362c362c362c362c382c,
  0x20202020382c362c362c362c352c352c352c352c352c362c362c362c362c362c362c362c,
  0x20202020362c362c362c352c352c352c352c352c352c352c352c352c352c352c352c352c,
  0x20202020352c352c352c352c352c352c352c352c307831372c307831372c307831372c302c302c302c302c302c,
  0x20202020302c302c302c302c302c302c302c302c302c302c302c302c302c302c302c302c,
  0x20202020302c302c302c302c302c302c302c302c352c352c352c352c352c352c352c352c,
  0x20202020352c352c362c362c362c362c362c362c362c362c362c362c362c362c362c382c,
  0x20202020362c362c307831372c307831372c307831372c352c307831372c307831372c352c307831372c307831372c307831372c307831372c307831372c302c302c,
  0x20202020302c302c302c302c302c302c302c302c307834392c307838392c307863392c30783130392c30783134392c30783138392c30783163392c30783230392c,
  0x2020202030783234392c30783238392c30783538622c30783563622c30783630622c30783634622c30783638622c30783663622c30783730622c30783734622c30783738622c30783763622c30786134622c30786363622c30786634622c3078313163622c,
  0x202020203078313434622c3078313663622c3078313934622c3078316263622c3078316534622c302c302c302c307831372c307831372c352c352c352c352c352c352c,
  0x20202020352c352c352c352c352c352c352c352c352c302c352c352c352c352c352c352c,
  0x20202020352c352c352c352c352c352c352c352c352c352c352c352c352c352c352c352c,
  0x20202020352c352c352c382c362c362c362c362c362c362c362c302c362c362c362c362c,
  0x20202020362c362c382c362c362c362c362c362c362c362c362c362c302c382c362c362c,
  0x20202020362c362c362c362c362c382c362c362c382c362c362c302c302c302c302c302c,
  0x20202020302c302c302c302c352c352c352c352c352c352c352c352c352c352c352c352c,
  0x20202020352c352c352c352c302c302c362c362c362c362c362c362c362c362c362c362c,
  0x20202020362c362c362c362c362c362c352c362c302c302c302c302c302c302c302c302c,
  0x20202020307834392c307838392c307863392c30783130392c30783134392c30783138392c30783163392c30783230392c30783234392c30783238392c302c302c302c302c302c302c,
  0x20202020352c352c352c352c352c352c352c302c352c352c302c352c352c352c352c352c,
  0x20202020352c352c352c352c352c352c352c352c352c352c352c352c352c352c352c352c,
  0x20202020352c362c362c362c362c362c362c302c302c302c362c302c362c362c302c362c,
  0x20202020352c352c352c352c352c352c352c352c352c352c382c382c382c382c382c302c,
  0x20202020362c362c302c382c382c362c382c362c352c302c302c302c302c302c302c302c,
  0x20202020352c352c352c352c352c352c302c352c352c302c352c352c352c352c352c352c,
  0x20202020352c352c352c352c352c352c352c352c352c352c352c352c352c352c352c352c,
  0x20202020352c352c352c362c362c382c382c307831372c307831372c302c302c302c302c302c302c302c,
  0x20202020302c302c302c302c302c302c302c302c302c302c302c302c352c302c302c302c,
  0x20202020302c302c302c302c302c302c302c302c302c302c302c302c307831392c307831622c307831622c307831622c,
  0x20202020307831622c307831622c307831622c307831622c307831622c307831622c307831622c307831622c307831622c307831622c307831622c307831622c307831622c307831622c302c302c,
  0x20202020302c302c302c302c302c302c302c302c302c302c302c307831372c3078636430622c3078636330622c3078636230622c3078643030622c,
  0x202020203078636130622c3078636630622c3078636234622c3078643034622c3078633930622c3078333763622c3078333763622c3078333634622c3078333563622c3078633934622c3078336663622c3078333530622c3078333463622c3078333434622c3078333434622c3078336363622c,
  0x202020203078636430622c307831622c307831622c307831622c307831622c307831622c307831622c307831622c307831622c307831392c307831392c307831392c3078333463612c3078333534612c3078333463612c3078333463612c,
  0x202020203078333434612c3078333438612c3078333838612c30786634612c3078313163612c30783634612c30783638612c30783663612c30783730612c30783734612c30783738612c302c307831372c307831372c307831372c307831372c,
  0x20202020307831372c302c302c302c302c302c302c302c302c302c302c302c30783563612c30783630612c30783634612c30783638612c,
  0x2020202030783663612c30783730612c30783734612c30783738612c30783630612c30783634612c30783638612c30783663612c30783730612c30783734612c30783738612c30783634612c30783638612c30783663612c30783730612c30783734612c,
  0x2020202030783738612c30783538612c30783563612c30783630612c30783634612c30783638612c30783663612c30783730612c30783734612c30783738612c30783538612c30783563612c30783630612c30783634612c30783638612c30783563612c,
  0x2020202030783630612c30783630612c30783634612c30783638612c30783663612c30783730612c30783734612c30783738612c30783538612c30783563612c30783630612c30783630612c30783634612c30783638612c3078633038612c3078633138612c,
  0x2020202030783538612c30783563612c30783630612c30783630612c30783634612c30783638612c30783630612c30783630612c30783634612c30783634612c30783634612c30783634612c30783663612c30783730612c30783730612c30783730612c,
  0x2020202030783734612c30783734612c30783738612c30783738612c30783738612c30783738612c30783563612c30783630612c30783634612c30783638612c30783663612c30783538612c30783563612c30783630612c30783634612c30783634612c,
  0x2020202030783638612c30783638612c30783563612c30783630612c30783538612c30783563612c3078333438612c3078333838612c3078343534612c3078333438612c3078333838612c3078333563612c352c352c352c352c,
  0x20202020302c302c302c302c302c302c302c302c302c302c302c302c302c302c302c302c,
  0x20202020302c302c302c302c302c302c302c302c302c302c302c302c352c352c352c352c,
  0x20202020352c352c352c352c352c352c352c352c352c352c352c302c307831302c307831302c307831302c307831302c,
  0x20202020307831302c307831302c307831302c307831302c307831302c302c302c302c302c302c302c302c352c352c352c352c,
  0x20202020352c352c352c302c302c302c302c302c302c302c302c302c302c302c302c302c,
  0x20202020302c302c302c302c302c302c302c302c302c302c302c302c307834392c307838392c307863392c30783130392c,
  0x2020202030783134392c30783138392c30783163392c30783230392c30783234392c30783238392c302c302c302c302c307831372c307831372c302c302c302c302c,
  0x20202020302c302c302c302c302c302c302c302c302c302c302c302c352c352c352c352c,
  0x20202020352c352c352c352c352c352c352c352c352c352c302c302c362c362c362c362c,
  0x20202020362c307831372c302c302c302c302c302c302c302c302c302c302c352c352c352c352c,
  0x20202020352c352c352c352c352c352c352c352c352c352c352c352c302c302c302c302c,
  0x20202020302c302c302c302c302c302c302c302c302c302c302c302c352c352c352c352c,
  0x20202020352c352c352c352c352c352c352c352c352c352c352c352c362c362c362c362c,
  0x20202020362c362c362c307831372c307831372c307831372c307831372c307831372c307831622c307831622c307831622c307831622c342c342c342c342c,
  0x20202020307831372c307831622c302c302c302c302c302c302c302c302c302c302c307834392c307838392c307863392c30783130392c,
  0x2020202030783134392c30783138392c30783163392c30783230392c30783234392c30783238392c302c30783763622c3078316534622c3078373838622c3078373930622c3078373938622c3078376130622c3078376138622c302c352c,
  0x20202020352c352c352c352c352c352c352c352c352c352c352c352c352c352c352c352c,
  0x20202020352c352c352c352c302c302c302c302c302c352c352c352c30783534622c30783538622c30783563622c30783630622c,
  0x2020202030783634622c30783638622c30783663622c30783730622c30783734622c30783738622c30783763622c30783830622c30783834622c30783838622c30783863622c30783930622c30783934622c30783938622c30783963622c30786130622c,
  0x2020202030783538622c30783563622c30783630622c307831372c307831372c307831372c307831372c302c302c302c302c302c352c352c352c352c,
  0x20202020352c352c352c352c352c352c352c302c302c302c302c362c352c382c382c382c,
  0x20202020382c382c382c382c382c382c382c382c382c382c382c382c382c382c382c382c,
  0x20202020382c382c382c382c382c382c382c382c382c382c382c382c382c382c382c382c,
  0x20202020302c302c302c302c302c302c302c362c362c362c362c342c342c342c342c342c,
  0x20202020342c342c342c342c342c342c342c342c342c342c307831372c342c362c302c302c302c,
  0x20202020302c302c302c302c302c302c302c302c382c382c302c302c302c302c302c302c,
  0x20202020302c302c302c302c302c302c302c302c352c352c352c352c352c352c352c352c,
  0x20202020352c352c352c352c352c352c352c352c352c352c352c352c352c352c352c352c,
  0x20202020302c302c302c302c302c302c302c302c302c302c302c302c302c302c302c302c,
  0x20202020352c352c352c302c302c302c302c302c302c302c302c302c302c302c302c302c,
  0x20202020352c352c352c352c302c302c302c302c302c302c302c302c352c352c352c352c,
  0x20202020352c352c352c352c352c352c352c352c352c352c352c352c352c352c352c302c,
  0x20202020302c302c302c302c352c352c352c352c352c352c352c352c352c352c352c352c,
  0x20202020352c302c302c302c302c302c302c302c352c352c352c352c352c352c352c352c,
  0x20202020352c352c302c302c307831622c362c362c307831372c307831302c307831302c307831302c307831302c302c302c302c302c,
  0x20202020302c302c302c302c302c302c302c302c302c302c302c302c302c302c302c302c,
  0x20202020302c302c302c302c302c302c302c302c307831622c307831622c307831622c307831622c307831622c307831622c307831622c302c,
  0x20202020302c307831622c307831622c307831622c307831622c307831622c307831622c307831622c307831622c307831622c307831622c307831622c307831622c307831622c307831622c307831622c,
  0x20202020307831622c307831622c307831622c307831622c307831622c307831622c307831622c307831622c307831622c382c382c362c362c362c307831622c307831622c,
  0x20202020307831622c382c382c382c382c382c382c307831302c307831302c307831302c307831302c307831302c307831302c307831302c307831302c362c,
  0x20202020362c362c362c362c362c362c362c307831622c307831622c362c362c362c362c362c362c362c,
  0x20202020307831622c307831622c307831622c307831622c307831622c307831622c307831622c307831622c307831622c307831622c307831622c307831622c307831622c307831622c307831622c307831622c,
  0x20202020307831622c307831622c307831622c307831622c307831622c307831622c362c362c362c362c307831622c307831622c307831622c307831622c307831622c307831622c,
  0x20202020307831622c307831622c307831622c307831622c307831622c307831622c307831622c307831622c307831622c307831622c307831622c307831622c307831622c302c302c302c,
  0x20202020302c302c302c302c302c302c302c302c302c302c302c302c302c302c302c302c,
  0x20202020302c302c302c302c307831622c307831622c362c362c362c307831622c302c302c302c302c302c302c,
  0x20202020302c302c302c302c302c302c302c302c302c302c302c302c302c302c302c302c,
  0x20202020302c302c302c302c30783534622c30783538622c30783563622c30783630622c30783634622c30783638622c30783663622c30783730622c30783734622c30783738622c30783763622c30783830622c,
  0x2020202030783834622c30783838622c30783863622c30783930622c30783934622c30783938622c30783963622c30786130622c302c302c302c302c302c302c302c302c,
  0x20202020302c302c302c302c30783538622c30783563622c30783630622c30783634622c30783638622c30783663622c30783730622c30783734622c30783738622c30783763622c30786134622c30786363622c,
  0x2020202030786634622c3078313163622c3078313434622c3078313663622c3078313934622c3078316263622c30783538622c30783563622c30783630622c30783634622c30783638622c30783538622c30783638622c302c302c302c,
  0x20202020302c302c302c302c30783234392c30783238392c307834392c307838392c307863392c30783130392c30783134392c30783138392c30783163392c30783230392c30783234392c30783238392c,
  0x20202020307834392c307838392c307863392c30783130392c30783134392c30783138392c30783163392c30783230392c30783234392c30783238392c307834392c307838392c307863392c30783130392c30783134392c30783138392c,
  0x2020202030783163392c30783230392c30783234392c30783238392c312c312c312c312c312c312c312c312c312c312c312c312c,
  0x20202020312c312c312c312c312c312c312c312c312c312c312c312c312c312c322c322c,
  0x20202020322c322c322c322c322c322c322c322c322c322c322c322c322c322c322c322c,
  0x20202020322c322c322c322c312c312c312c312c312c312c312c312c312c312c312c312c,
  0x20202020312c312c322c322c322c322c322c322c322c302c322c322c322c322c322c322c,
  0x20202020322c322c322c322c312c312c312c312c312c312c312c312c312c312c312c312c,
  0x20202020312c312c312c312c312c312c312c312c312c312c312c312c312c312c322c322c,
  0x20202020322c322c322c322c322c322c322c322c322c322c322c322c322c322c322c322c,
  0x20202020322c322c322c322c322c322c322c322c312c302c312c312c302c302c312c302c,
  0x20202020302c312c312c302c302c312c312c312c312c302c312c312c312c312c312c312c,
  0x20202020312c312c322c322c322c322c302c322c302c322c322c322c322c322c322c322c,
  0x20202020302c322c322c322c322c322c322c322c322c322c322c322c312c312c312c312c,
  0x20202020312c312c312c312c312c312c312c312c312c312c312c312c322c322c322c322c,
  0x20202020312c312c302c312c312c312c312c302c302c312c312c312c312c312c312c312c,
  0x20202020312c302c312c312c312c312c312c312c312c302c322c322c322c322c322c322c,
  0x20202020322c322c322c322c322c322c322c322c322c322c322c322c322c322c322c322c,
  0x20202020322c322c322c322c312c312c302c312c312c312c312c302c312c312c312c312c,
  0x20202020312c302c312c302c302c302c312c312c312c312c312c312c312c302c322c322c,
  0x20202020322c322c322c322c322c322c322c322c322c322c322c322c312c312c312c312c,
  0x20202020312c312c312c312c312c312c312c312c312c312c312c312c312c312c312c312c,
  0x20202020312c312c322c322c322c322c322c322c322c322c322c322c322c322c322c322c,
  0x20202020322c322c322c322c322c322c322c322c322c322c322c322c312c312c312c312c,
  0x20202020312c312c312c312c312c312c312c312c312c312c312c312c322c322c322c322c,
  0x20202020322c322c302c302c312c312c312c312c312c312c312c312c312c312c312c312c,
  0x20202020312c312c312c312c312c312c312c312c312c312c312c312c312c307831382c322c322c,
  0x20202020322c322c322c322c322c322c322c322c322c322c322c322c322c322c322c322c,
  0x20202020322c322c322c322c322c322c322c307831382c322c322c322c322c322c322c312c312c,
  0x20202020312c312c312c312c312c312c312c312c312c312c312c312c312c312c312c312c,
  0x20202020312c312c312c312c312c312c312c307831382c322c322c322c322c322c322c322c322c,
  0x20202020322c322c322c322c322c322c322c322c322c322c322c322c322c307831382c322c322c,
  0x20202020322c322c322c322c312c312c312c312c312c312c312c312c312c312c312c312c,
  0x20202020312c312c312c312c322c322c322c307831382c322c322c322c322c322c322c312c322c,
  0x20202020302c302c307834392c307838392c307863392c30783130392c30783134392c30783138392c30783163392c30783230392c30783234392c30783238392c307834392c307838392c307863392c30783130392c,
  0x2020202030783134392c30783138392c30783163392c30783230392c302c362c362c362c362c362c362c362c362c362c362c362c,
  0x20202020362c362c362c362c302c302c302c302c302c302c302c302c302c302c302c302c,
  0x20202020302c302c302c302c362c362c362c362c362c362c362c362c362c362c362c362c,
  0x20202020362c362c362c362c362c362c362c362c362c362c362c307831622c307831622c307831622c307831622c362c,
  0x20202020362c362c362c362c362c362c362c362c362c362c362c362c362c307831622c307831622c307831622c,
  0x20202020307831622c307831622c307831622c307831622c307831622c362c307831622c307831622c307831622c307831622c307831622c307831622c307831622c307831622c307831622c307831622c,
  0x20202020362c307831622c307831622c307831372c307831372c307831372c307831372c307831372c302c302c302c302c302c302c302c302c,
  0x20202020302c302c302c302c302c302c302c362c362c362c362c362c362c362c362c302c,
  0x20202020362c362c362c362c362c362c362c362c362c362c362c362c362c362c362c362c]

/-- UnicodeData/CharPropsData.py:1288-1400 the lines. -/
def charText6 : List Nat :=
 [0x20202020362c302c302c362c362c362c362c362c362c362c302c362c362c302c362c362c,
  0x20202020362c362c362c302c302c302c302c302c302c302c302c302c302c302c302c302c,
  0x20202020302c302c302c302c302c302c302c302c307834392c307838392c307863392c30783130392c30783134392c30783138392c30783163392c30783230392c,
  0x2020202030783234392c30783238392c302c302c302c302c352c307831622c302c302c302c302c302c302c302c302c,
  0x20202020302c302c302c302c302c302c302c302c352c352c352c352c352c352c352c352c,
  0x20202020352c352c352c352c352c302c302c302c362c362c362c362c362c362c362c342c,
  0x20202020342c342c342c342c342c342c302c302c352c352c352c352c352c352c352c352c,
  0x20202020352c352c352c352c362c362c362c362c307834392c307838392c307863392c30783130392c30783134392c30783138392c30783163392c30783230392c,
  0x2020202030783234392c30783238392c302c302c302c302c302c307831392c352c352c352c352c352c302c302c30783538622c,
  0x2020202030783563622c30783630622c30783634622c30783638622c30783663622c30783730622c30783734622c30783738622c362c362c362c362c362c362c362c302c,
  0x20202020302c302c302c302c302c302c302c302c322c322c322c322c362c362c362c362c,
  0x20202020362c362c362c342c302c302c302c302c307834392c307838392c307863392c30783130392c30783134392c30783138392c30783163392c30783230392c,
  0x2020202030783234392c30783238392c302c302c302c302c307831372c307831372c312c312c322c322c322c322c322c322c,
  0x20202020322c322c322c322c322c322c322c322c322c322c322c322c322c322c322c322c,
  0x20202020322c322c322c322c322c322c322c322c302c302c302c302c302c302c302c302c,
  0x20202020302c302c302c302c302c302c302c302c302c30783538622c30783563622c30783630622c30783634622c30783638622c30783663622c30783730622c,
  0x2020202030783734622c30783738622c30783763622c30786134622c30786363622c30786634622c3078313163622c3078313434622c3078373863622c3078373934622c3078383134622c30783538622c30783563622c30783630622c30783634622c30783638622c,
  0x2020202030783663622c30783730622c30783734622c30783738622c307831622c3078333463622c3078333434622c3078336363622c307831392c30783538622c30783563622c3078373838622c3078373863622c302c302c302c,
  0x20202020302c302c302c302c302c302c302c302c3078313663622c3078313934622c3078316263622c3078316534622c3078383030622c3078383830622c3078393030622c3078393830622c,
  0x202020203078613030622c3078613830622c3078623030622c3078623830622c3078373834622c3078383034622c3078383834622c3078393034622c3078393834622c3078613034622c3078613834622c3078623034622c3078623834622c3078373838622c3078383038622c3078383838622c,
  0x202020203078393038622c3078393838622c3078613038622c3078613838622c3078623038622c3078623838622c3078373863622c3078383063622c3078393834622c3078613034622c3078613834622c3078623034622c3078623834622c3078373838622c3078383038622c3078383838622c,
  0x202020203078393038622c3078393838622c3078613038622c3078613838622c3078623038622c3078623838622c307831622c30783563622c30783630622c30783634622c30783638622c30783663622c30783730622c30783734622c30783738622c30783763622c,
  0x202020203078393030622c3078613030622c3078383034622c3078373838622c3078333434622c3078333534622c302c302c302c30783538622c30783563622c30783630622c30783634622c30783638622c30783663622c30783730622c,
  0x2020202030783734622c30783738622c30783763622c30786134622c30786363622c30786634622c3078313163622c3078313434622c3078313663622c3078313934622c3078316263622c3078316534622c3078383030622c3078383830622c3078393030622c3078393830622c,
  0x202020203078613030622c3078613830622c3078623030622c3078623830622c3078373834622c3078383034622c3078383834622c3078393034622c302c302c302c302c302c302c302c302c,
  0x20202020302c302c302c302c302c302c302c302c307831382c307831382c302c302c302c302c302c302c,
  0x20202020302c302c302c302c302c302c302c302c352c352c352c352c302c352c352c352c,
  0x20202020352c352c352c352c352c352c352c352c352c352c352c352c352c352c352c352c,
  0x20202020352c352c352c352c352c352c352c352c302c352c352c302c352c302c302c352c,
  0x20202020302c352c352c352c352c352c352c352c352c352c352c302c352c352c352c352c,
  0x20202020302c352c302c352c302c302c302c302c302c302c352c302c302c302c302c352c,
  0x20202020302c352c302c352c302c352c352c352c302c352c352c302c352c302c302c352c,
  0x20202020302c352c302c352c302c352c302c352c302c352c352c302c352c302c302c352c,
  0x20202020352c352c352c302c352c352c352c352c352c352c352c302c352c352c352c352c,
  0x20202020302c352c352c352c352c302c352c302c352c352c352c352c352c352c352c352c,
  0x20202020352c352c302c352c352c352c352c352c352c352c352c352c352c352c352c352c,
  0x20202020352c352c352c352c302c302c302c302c302c352c352c352c302c352c352c352c,
  0x20202020352c352c302c352c352c352c352c352c352c352c352c352c352c352c352c352c,
  0x20202020352c352c352c352c302c302c302c302c307831622c307831622c307831622c307831622c307831622c307831622c307831622c307831622c,
  0x20202020307831622c307831622c307831622c307831622c302c302c302c302c307831622c307831622c307831622c307831622c307831622c307831622c307831622c307831622c,
  0x20202020307831622c307831622c307831622c307831622c307831622c307831622c307831622c307831622c307831622c307831622c307831622c302c302c307831622c307831622c307831622c,
  0x20202020307831622c307831622c307831622c307831622c307831622c307831622c307831622c307831622c307831622c307831622c307831622c307831622c302c307831622c307831622c307831622c,
  0x20202020307831622c307831622c307831622c307831622c307831622c307831622c307831622c307831622c307831622c307831622c307831622c307831622c30783263622c30783263622c30783330622c30783334622c,
  0x2020202030783338622c30783363622c30783430622c30783434622c30783438622c30783463622c30783530622c30783534622c30783534622c307831622c307831622c307831622c307831622c307831622c307831622c307831622c,
  0x20202020307831622c307831622c307831622c307831622c307831622c307831622c307831622c307831622c307831622c307831622c307831622c307831622c302c302c302c302c,
  0x20202020302c302c307831622c307831622c307831622c307831622c307831622c307831622c307831622c307831622c307831622c307831622c307831622c307831622c307831622c307831622c,
  0x20202020307831622c307831622c307831622c307831622c307831622c307831622c307831622c307831622c307831622c307831622c307831622c307831622c307831622c307831622c307831622c302c,
  0x20202020302c302c302c302c302c302c302c302c302c302c302c302c307831622c307831622c307831622c307831622c,
  0x20202020307831622c307831622c307831622c307831622c307831622c307831622c307831622c307831622c307831622c307831622c307831622c307831622c307831622c307831622c307831622c307831622c,
  0x20202020307831622c307831622c307831622c307831622c307831622c307831622c307831622c307831622c302c302c302c302c307831622c307831622c307831622c307831622c,
  0x20202020307831622c307831622c307831622c307831622c307831622c302c302c302c302c302c302c302c307831622c307831622c302c302c,
  0x20202020302c302c302c302c302c302c302c302c302c302c302c302c307831622c307831622c307831622c307831622c,
  0x20202020307831622c307831622c302c302c302c302c302c302c302c302c302c302c302c302c302c302c,
  0x20202020302c302c302c302c302c302c302c302c302c302c302c302c307831622c307831622c307831622c307831622c,
  0x20202020307831622c307831622c307831622c307831622c307831622c307831622c307831622c307831622c307831622c307831622c307831622c307831622c307831622c307831622c307831622c307831622c,
  0x20202020307831622c307831622c307831622c307831622c307831622c307831622c307831622c307831612c307831612c307831612c307831612c307831612c307831622c307831622c307831622c307831622c,
  0x20202020307831622c307831622c307831622c307831622c307831622c307831622c307831622c307831622c307831622c307831622c307831622c307831622c307831622c307831622c307831622c307831622c,
  0x20202020307831622c307831622c307831622c307831622c302c302c302c302c302c302c302c302c307831622c307831622c307831622c307831622c,
  0x20202020307831622c307831622c307831622c307831622c307831622c307831622c307831622c307831622c307831622c302c302c302c307831622c307831622c307831622c307831622c,
  0x20202020307831622c307831622c307831622c307831622c307831622c307831622c307831622c307831622c307831622c302c302c302c307831622c307831622c307831622c307831622c,
  0x20202020307831622c307831622c307831622c307831622c307831622c307831622c307831622c307831622c307831622c307831622c307831622c307831622c307831622c307831622c307831622c307831622c,
  0x20202020307831622c307831622c307831622c307831622c307831622c302c302c302c302c302c302c302c307831622c307831622c307831622c307831622c,
  0x20202020307831622c307831622c307831622c307831622c307831622c307831622c307831622c307831622c302c302c302c302c302c302c302c302c,
  0x20202020302c302c302c302c302c302c302c302c302c302c302c302c307831622c307831622c307831622c307831622c,
  0x20202020307831622c307831622c307831622c307831622c302c302c302c302c302c302c302c302c307831622c307831622c307831622c307831622c,
  0x20202020307831622c307831622c307831622c307831622c307831622c307831622c302c302c302c302c302c302c307831622c307831622c307831622c307831622c,
  0x20202020307831622c307831622c307831622c307831622c302c302c302c302c302c302c302c302c307831622c307831622c307831622c307831622c,
  0x20202020307831622c307831622c307831622c307831622c307831622c307831622c307831622c307831622c307831622c307831622c307831622c307831622c307831622c307831622c302c302c,
  0x20202020307831622c307831622c302c302c302c302c302c302c302c302c302c302c302c302c302c302c,
  0x20202020307831622c307831622c307831622c307831622c307831622c307831622c307831622c307831622c307831622c307831622c307831622c307831622c307831622c307831622c307831622c307831622c,
  0x20202020307831622c307831622c307831622c307831622c307831622c307831622c307831622c307831622c307831622c302c307831622c307831622c307831622c307831622c307831622c307831622c,
  0x20202020307831622c307831622c307831622c307831622c307831622c307831622c307831622c307831622c302c307831622c307831622c307831622c307831622c307831622c307831622c307831622c,
  0x20202020307831622c307831622c307831622c307831622c307831622c307831622c307831622c307831622c307831622c307831622c307831622c307831622c307831622c307831622c302c302c,
  0x20202020307831622c307831622c307831622c307831622c307831622c302c302c302c307831622c307831622c307831622c302c302c302c302c302c,
  0x20202020307831622c307831622c307831622c307831622c307831622c307831622c307831622c302c302c302c302c302c302c302c302c302c,
  0x20202020307831622c307831622c307831622c307831622c307831622c307831622c307831622c307831622c307831622c307831622c307831622c307831622c307831622c307831622c307831622c307831622c,
  0x20202020307831622c302c302c302c302c302c302c302c307831622c307831622c307831622c307831622c307831622c307831622c307831622c302c,
  0x20202020302c302c302c302c302c302c302c302c302c302c302c302c307831622c307831622c307831622c307831622c,
  0x20202020307831622c307831622c307831622c302c302c302c302c302c302c302c302c302c307831622c307831622c307831622c307831622c,
  0x20202020307831622c307831622c307831622c307831622c307831622c307831622c307831622c307831622c307831622c307831622c307831622c307831622c307831622c307831622c307831622c302c,
  0x20202020307831622c307831622c307831622c307831622c307831622c307831622c307831622c307831622c307831622c307831622c307831622c307831622c352c30783730352c352c352c,
  0x20202020352c352c352c352c352c352c352c352c352c352c352c352c352c352c352c352c,
  0x20202020352c352c352c352c352c352c352c352c352c352c352c352c30783634352c352c352c352c,
  0x20202020352c352c352c352c352c352c352c352c352c352c352c352c352c352c352c352c,
  0x20202020352c352c352c352c352c352c352c352c352c352c30783634352c352c352c352c352c352c,
  0x20202020352c352c352c352c352c352c352c352c352c352c352c352c352c352c352c352c,
  0x20202020352c352c352c352c352c352c352c352c352c30783638352c352c352c352c352c352c352c,
  0x20202020352c352c352c352c352c352c352c352c352c352c352c352c352c352c352c352c,
  0x20202020352c352c352c352c352c352c352c352c352c352c352c30786363352c352c352c352c352c,
  0x20202020352c352c352c352c30786634352c352c352c352c352c352c352c352c352c352c352c352c,
  0x20202020352c352c352c352c30786634352c352c352c352c352c352c352c352c352c352c352c352c,
  0x20202020352c352c30783663352c352c352c352c352c352c352c352c352c352c352c352c352c352c,
  0x20202020352c352c352c352c352c30783630352c352c352c352c352c352c352c352c352c352c352c,
  0x20202020352c352c352c352c352c352c352c352c352c352c352c352c352c352c352c352c,
  0x20202020352c30783630352c352c352c352c352c352c352c352c352c352c352c352c352c352c352c,
  0x20202020352c352c352c352c352c352c352c352c352c352c352c352c30783630352c352c352c352c,
  0x20202020352c352c352c352c352c352c352c352c352c352c352c352c352c352c352c352c,
  0x20202020352c352c352c352c352c352c352c352c352c352c352c30783630352c352c352c352c352c,
  0x20202020352c352c352c352c352c352c352c352c352c30783634352c352c352c352c352c352c352c,
  0x20202020352c352c352c352c352c352c352c352c352c352c352c352c352c352c352c352c,
  0x20202020352c302c302c302c302c302c302c302c302c302c302c302c302c302c302c302c,
  0x20202020302c302c302c302c302c302c302c302c302c302c302c302c302c302c302c302c,
  0x20202020352c352c352c352c352c352c352c352c352c352c352c352c352c352c352c352c,
  0x2020202030783738352c352c352c352c352c352c352c352c352c352c352c352c352c352c352c352c,
  0x20202020307831302c307831302c307831302c307831302c307831302c307831302c307831302c307831302c307831302c307831302c307831302c307831302c307831302c307831302c307831302c307831302c,
  0x20202020307831302c307831302c307831302c307831302c307831302c307831302c307831302c307831302c307831302c307831302c307831302c307831302c307831302c307831302c307831302c307831302c,
  0x20202020302c307831302c302c302c302c302c302c302c302c302c302c302c302c302c302c302c,
  0x20202020302c302c302c302c302c302c302c302c302c302c302c302c302c302c302c302c,
  0x20202020362c362c362c362c362c362c362c362c362c362c362c362c362c362c362c362c,
  0x20202020302c302c302c302c302c302c302c302c302c302c302c302c302c302c302c302c,
  0x20202020307831312c307831312c307831312c307831312c307831312c307831312c307831312c307831312c307831312c307831312c307831312c307831312c307831312c307831312c307831312c307831312c,
  0x20202020307831312c307831312c307831312c307831312c307831312c307831312c307831312c307831312c307831312c307831312c307831312c307831312c307831312c307831312c302c302c,
  0x20202020302c302c302c30]

/-- UnicodeData/CharPropsData.py:1401-1409 the lines. -/
def charText7 : List Nat :=
 [0x5d,
  0x0,
  0x70726f7073547269655f696e6465785f6c656e677468203d2034353332,
  0x70726f7073547269655f696e6465785f325f6e756c6c5f6f6666736574203d203078613430,
  0x70726f7073547269655f646174615f6e756c6c5f6f6666736574203d20307831323334,
  0x70726f7073547269655f686967685f7374617274203d203078313130303030,
  0x70726f7073547269655f686967685f76616c75655f696e646578203d20307835373030,
  0x0,
  0x70726f7073566563746f7273547269655f696e646578203d205b]

/-- UnicodeData/CharPropsData.py:1410-1665 the lines. -/
def charText8 : List Nat :=
 [0x2020202030783465382c30783466302c30783466382c30783530302c30783531382c30783532302c30783532382c30783533302c30783533382c30783534302c30783534382c30783535302c30783535382c30783536302c30783536382c30783537302c,
  0x2020202030783537372c30783537662c30783538372c30783538662c30783539322c30783539612c30783561322c30783561612c30783562322c30783562612c30783563322c30783563612c30783564322c30783564612c30783565322c30783565612c,
  0x2020202030783566322c30783566612c30783630312c30783630392c30783631312c30783631392c30783632312c30783632392c30783633312c30783633392c30783633652c30783634362c30783634642c30783635352c30783635642c30783636352c,
  0x2020202030783636642c30783637352c30783637642c30783638352c30783638632c30783639342c30783639632c30783661342c30783661632c30783662342c30783662632c30783663342c30783663632c30783664342c30783664632c30783665342c,
  0x202020203078316133382c30786435652c30786533352c30783665632c30783530382c30786539632c30786561342c3078316266322c3078313330302c3078313331302c3078313266382c3078313330382c30783763352c30783763622c30783764332c30783764622c,
  0x2020202030783765332c30783765392c30783766312c30783766392c30783830312c30783830372c30783830662c30783831372c30783831662c30783832352c30783832642c30783833352c30783833642c30783834352c30783834642c30783835342c,
  0x2020202030783835632c30783836322c30783836612c30783837322c30783837612c30783838302c30783838382c30783839302c30783839382c3078313331382c30783861302c30783861382c30783862302c30783862372c30783862662c30783863372c,
  0x2020202030783863662c30783864332c30783864622c30783865322c30783865612c30783866322c30783866612c30783930322c3078313632632c3078313633342c30783930612c30783931322c30783931612c30783932322c30783932612c30783933312c,
  0x202020203078313639322c3078313638322c3078313638612c3078313937332c3078313937622c3078313332382c30783933392c3078313332302c3078313537322c3078313537322c3078313537342c3078313333632c3078313333642c3078313333302c3078313333322c3078313333342c,
  0x202020203078313639612c3078313639632c30783934312c3078313639632c30783934392c30783934652c30783935362c3078313661312c30783935632c3078313639632c30783936322c30783936612c30786333392c3078313661392c3078313661392c30783937322c,
  0x202020203078313662392c3078313662612c3078313662612c3078313662612c3078313662612c3078313662612c3078313662612c3078313662612c3078313662612c3078313662612c3078313662612c3078313662612c3078313662612c3078313662612c3078313662612c3078313662612c,
  0x202020203078313662612c3078313662612c3078313662612c3078313662312c30783937612c3078313663322c3078313663322c30783938322c30786235392c30786236312c30786236392c30786237312c3078313664322c3078313663612c30783938612c30783939322c,
  0x2020202030783939612c3078313664632c3078313665342c30783961322c3078313664612c30783961612c3078316134302c30786436362c30786237392c30786238312c30786238392c30786238652c3078313865312c30786336632c30786337332c3078313834392c,
  0x2020202030786330392c3078316134382c30786436652c30786437362c30786437652c30786438362c30786634372c30786634382c3078313933392c3078313933652c30786361382c30786362302c3078313961662c3078313962372c3078316231312c30786533642c,
  0x202020203078313962662c30786366322c30786366612c3078313963372c3078313066362c3078313139362c30786632372c30786438652c3078313836392c3078313835312c3078313836312c3078313835392c3078313866392c3078313866312c3078313862392c30786331392c,
  0x202020203078313334352c3078313334352c3078313334352c3078313334352c3078313334382c3078313334352c3078313334352c3078313335302c30783962322c3078313335382c30783962362c30783962652c3078313335382c30783963362c30783963652c30783964362c,
  0x202020203078313336382c3078313336302c3078313337302c30783964652c30783965362c3078313337382c30783965652c30783966362c3078313338302c3078313338382c3078313339302c3078313339382c30783966652c3078313361302c3078313361372c3078313361662c,
  0x202020203078313362372c3078313362662c3078313363372c3078313363662c3078313364372c3078313364652c3078313365362c3078313365652c3078313366362c3078313366652c3078313430312c3078313430332c3078313665632c3078313764632c3078313765322c3078313932392c,
  0x202020203078313430622c30786130362c30786130652c3078313532352c3078313532612c3078313532642c3078313533352c3078313431332c3078313533642c3078313533642c3078313432332c3078313431622c3078313432622c3078313433332c3078313433622c3078313434332c,
  0x202020203078313434622c3078313435332c3078313435622c3078313436332c3078313765612c3078313834312c3078313938332c3078316164392c3078313437332c3078313437612c3078313438322c3078313438612c3078313436622c3078313439322c3078313766322c3078313766392c,
  0x202020203078313666342c3078313666342c3078313666342c3078313666342c3078313666342c3078313666342c3078313666342c3078313666342c3078313830312c3078313830342c3078313830312c3078313830312c3078313830632c3078313831332c3078313831352c3078313831632c,
  0x202020203078313832342c3078313832382c3078313832382c3078313832622c3078313832382c3078313832382c3078313833312c3078313832382c3078313837312c3078313933312c3078313938622c30786239362c30786239632c3078316333362c3078316333652c3078316431352c,
  0x202020203078313864312c30786334392c30786334642c3078313934362c3078313863312c3078313863312c3078313863312c30786332312c3078313863392c30786334312c3078313931312c30786339382c30786332392c30786333312c30786333312c3078313963662c,
  0x202020203078313930312c3078313939332c30786338332c30786338382c30786131362c3078313666632c3078313666632c30786131652c3078313730342c3078313730342c3078313730342c3078313730342c3078313730342c3078313730342c30786132362c30783666302c,
  0x202020203078313535612c3078313537632c30786132652c3078313538342c30786133362c3078313538632c3078313539342c3078313539632c30786133652c30786134332c3078313561342c3078313561622c30786134382c3078313730632c3078313932312c30786331312c,
  0x2020202030786135302c3078313630362c3078313630642c3078313562332c3078313631352c3078313631632c3078313562622c3078313562662c3078313564382c3078313564382c3078313564612c3078313563372c3078313563662c3078313563662c3078313564302c3078313632342c,
  0x202020203078313731342c3078313731342c3078313731342c3078313731342c3078313731342c3078313731342c3078313731342c3078313731342c3078313731342c3078313731342c3078313731342c3078313731342c3078313731342c3078313731342c3078313731342c3078313731342c,
  0x202020203078313731342c3078313731342c3078313731342c3078313731342c3078313731342c3078313731342c3078313731342c3078313731342c3078313731342c3078313731342c3078313731342c3078313731342c3078313731342c3078313731342c3078313731342c3078313731342c,
  0x202020203078313731342c3078313731342c3078313731342c3078313731342c3078313731342c3078313731342c3078313731342c3078313731342c3078313731342c3078313731342c3078313731342c3078313731342c3078313731342c3078313731342c3078313731342c3078313731342c,
  0x202020203078313731342c3078313731342c3078313731342c3078313731342c3078313731342c3078313731342c3078313731342c3078313731342c3078313731342c3078313731342c3078313731342c3078313731342c3078313731342c3078313731342c3078313731342c3078313731342c,
  0x202020203078313731342c3078313731342c3078313731342c3078313731342c3078313731342c3078313731342c3078313731342c3078313731342c3078313731342c3078313731342c3078313731342c3078313731342c3078313731342c3078313731342c3078313731342c3078313731342c,
  0x202020203078313731342c3078313731342c3078313731342c3078313731342c3078313731342c3078313731342c3078313731342c3078313731342c3078313731342c3078313731342c3078313731342c3078313731342c3078313731342c3078313731342c3078313731342c3078313731342c,
  0x202020203078313731342c3078313731342c3078313731342c3078313731342c3078313731342c3078313731342c3078313731342c3078313731342c3078313731342c3078313731342c3078313731342c3078313731342c3078313731342c3078313731342c3078313731342c3078313731342c,
  0x202020203078313731342c3078313731342c3078313731342c3078313731342c3078313731342c3078313731342c3078313731342c3078313731342c3078313731342c3078313731342c3078313731342c3078313731342c3078313731342c3078313731342c3078313731342c3078313731342c,
  0x202020203078313731342c3078313731342c3078313731342c3078313731342c3078313731342c3078313731342c3078313731342c3078313731342c3078313731342c3078313731342c3078313731342c3078313731342c3078313731342c3078313731342c3078313731342c3078313731342c,
  0x202020203078313731342c3078313731342c3078313731342c3078313731342c3078313731342c3078313731342c3078313731342c3078313731342c3078313731342c3078313731342c3078313731342c3078313731342c3078313731342c3078313731342c3078313731342c3078313731342c,
  0x202020203078313731342c3078313731342c3078313731342c3078313731342c3078313731342c3078313731342c3078313731342c3078313731342c3078313731342c3078313731342c3078313731342c3078313731342c3078313731342c3078313731342c3078313731342c3078313731342c,
  0x202020203078313731342c3078313731342c3078313731342c3078313731342c3078313731342c3078313731342c3078313731342c3078313731342c3078313731342c3078313731342c3078313731342c3078313731342c3078313731342c3078313731342c3078313731342c3078313731342c,
  0x202020203078313731342c3078313731342c3078313731342c3078313731342c3078313731342c3078313731342c3078313731342c3078313731342c3078313731342c3078313731342c3078313731342c3078313731342c3078313731342c3078313731372c3078313837392c3078313837392c,
  0x202020203078313565322c3078313565322c3078313565322c3078313565322c3078313565322c3078313565322c3078313565322c3078313565322c3078313565322c3078313565322c3078313565322c3078313565322c3078313565322c3078313565322c3078313565322c3078313565322c,
  0x202020203078313565322c3078313565322c3078313565322c3078313565322c3078313565322c3078313565322c3078313565322c3078313565322c3078313565322c3078313565322c3078313565322c3078313565322c3078313565322c3078313565322c3078313565322c3078313565322c,
  0x202020203078313565322c3078313565322c3078313565322c3078313565322c3078313565322c3078313565322c3078313565322c3078313565322c3078313565322c3078313565322c3078313565322c3078313565322c3078313565322c3078313565322c3078313565322c3078313565322c,
  0x202020203078313565322c3078313565322c3078313565322c3078313565322c3078313565322c3078313565322c3078313565322c3078313565322c3078313565322c3078313565322c3078313565322c3078313565322c3078313565322c3078313565322c3078313565322c3078313565322c,
  0x202020203078313565322c3078313565322c3078313565322c3078313565322c3078313565322c3078313565322c3078313565322c3078313565322c3078313565322c3078313565322c3078313565322c3078313565322c3078313565322c3078313565322c3078313565322c3078313565322c,
  0x202020203078313565322c3078313565322c3078313565322c3078313565322c3078313565322c3078313565322c3078313565322c3078313565322c3078313565322c3078313565322c3078313565322c3078313565322c3078313565322c3078313565322c3078313565322c3078313565322c,
  0x202020203078313565322c3078313565322c3078313565322c3078313565322c3078313565322c3078313565322c3078313565322c3078313565322c3078313565322c3078313565322c3078313565322c3078313565322c3078313565322c3078313565322c3078313565322c3078313565322c,
  0x202020203078313565322c3078313565322c3078313565322c3078313565322c3078313565322c3078313565322c3078313565322c3078313565322c3078313565322c3078313565322c3078313565322c3078313565322c3078313565322c3078313565322c3078313565322c3078313565322c,
  0x202020203078313565322c3078313565322c3078313565322c3078313565322c3078313565322c3078313565322c3078313565322c3078313565322c3078313565322c3078313565322c3078313565322c3078313565322c3078313565322c3078313565322c3078313565322c3078313565322c,
  0x202020203078313565322c3078313565322c3078313565322c3078313565322c3078313565322c3078313565322c3078313565322c3078313565322c3078313565322c3078313565322c3078313565322c3078313565322c3078313565322c3078313565322c3078313565322c3078313565322c,
  0x202020203078313565322c3078313565322c3078313565322c3078313565322c3078313565322c3078313565322c3078313565322c3078313565322c3078313565322c3078313565322c3078313565322c3078313565322c3078313565322c3078313565322c3078313565322c3078313565322c,
  0x202020203078313565322c3078313565322c3078313565322c3078313565322c3078313565322c3078313565322c3078313565322c3078313565322c3078313565322c3078313565322c3078313565322c3078313565322c3078313565322c3078313565322c3078313565322c3078313565322c,
  0x202020203078313565322c3078313565322c3078313565322c3078313565322c3078313565322c3078313565322c3078313565322c3078313565322c3078313565322c3078313565322c3078313565322c3078313565322c3078313565322c3078313565322c3078313565322c3078313565322c,
  0x202020203078313565322c3078313565322c3078313565322c3078313565322c3078313565322c3078313565322c3078313565322c3078313565322c3078313565322c3078313565322c3078313565322c3078313565322c3078313565322c3078313565322c3078313565322c3078313565322c,
  0x202020203078313565322c3078313565322c3078313565322c3078313565322c3078313565322c3078313565322c3078313565322c3078313565322c3078313565322c3078313565322c3078313565322c3078313565322c3078313565322c3078313565322c3078313565322c3078313565322c,
  0x202020203078313565322c3078313565322c3078313565322c3078313565322c3078313565322c3078313565322c3078313565322c3078313565322c3078313565322c3078313565322c3078313565322c3078313565322c3078313565322c3078313565322c3078313565322c3078313565322c,
  0x202020203078313565322c3078313565322c3078313565322c3078313565322c3078313565322c3078313565322c3078313565322c3078313565322c3078313565322c3078313565322c3078313565322c3078313565322c3078313565322c3078313565322c3078313565322c3078313565322c,
  0x202020203078313565322c3078313565322c3078313565322c3078313565322c3078313565322c3078313565322c3078313565322c3078313565322c3078313565322c3078313565322c3078313565322c3078313565322c3078313565322c3078313565322c3078313565322c3078313565322c,
  0x202020203078313565322c3078313565322c3078313565322c3078313565322c3078313565322c3078313565322c3078313565322c3078313565322c3078313565322c3078313565322c3078313565322c3078313565322c3078313565322c3078313565322c3078313565322c3078313565322c,
  0x202020203078313565322c3078313565322c3078313565322c3078313565322c3078313565322c3078313565322c3078313565322c3078313565322c3078313565322c3078313565322c3078313565322c3078313565322c3078313565322c3078313565322c3078313565322c3078313565322c,
  0x202020203078313565322c3078313565322c3078313565322c3078313565322c3078313565322c3078313565322c3078313565322c3078313565322c3078313565322c3078313565322c3078313565322c3078313565322c3078313565322c3078313565322c3078313565322c3078313565322c,
  0x202020203078313565322c3078313565322c3078313565322c3078313565322c3078313565322c3078313565322c3078313565322c3078313565322c3078313565322c3078313565322c3078313565322c3078313565322c3078313565322c3078313565322c3078313565322c3078313565322c,
  0x202020203078313565322c3078313565322c3078313565322c3078313565322c3078313565322c3078313565322c3078313565322c3078313565322c3078313565322c3078313565322c3078313565322c3078313565322c3078313565322c3078313565322c3078313565322c3078313565322c,
  0x202020203078313565322c3078313565322c3078313565322c3078313565322c3078313565322c3078313565322c3078313565322c3078313565322c3078313565322c3078313565322c3078313565322c3078313565322c3078313565322c3078313565322c3078313565322c3078313565322c,
  0x202020203078313565322c3078313565322c3078313565322c3078313565322c3078313565322c3078313565322c3078313565322c3078313565322c3078313565322c3078313565322c3078313565322c3078313565322c3078313565322c3078313565322c3078313565322c3078313565322c,
  0x202020203078313565322c3078313565322c3078313565322c3078313565322c3078313565322c3078313565322c3078313565322c3078313565322c3078313565322c3078313565322c3078313565322c3078313565322c3078313565322c3078313565322c3078313565322c3078313565322c,
  0x202020203078313565322c3078313565322c3078313565322c3078313565322c3078313565322c3078313565322c3078313565322c3078313565322c3078313565322c3078313565322c3078313565322c3078313565322c3078313565322c3078313565322c3078313565322c3078313565322c,
  0x202020203078313565322c3078313565322c3078313565322c3078313565322c3078313565322c3078313565322c3078313565322c3078313565322c3078313565322c3078313565322c3078313565322c3078313565322c3078313565322c3078313565322c3078313565322c3078313565322c,
  0x202020203078313565322c3078313565322c3078313565322c3078313565322c3078313565322c3078313565322c3078313565322c3078313565322c3078313565322c3078313565322c3078313565322c3078313565322c3078313565322c3078313565322c3078313565322c3078313565322c,
  0x202020203078313565322c3078313565322c3078313565322c3078313565322c3078313565322c3078313565322c3078313565322c3078313565322c3078313565322c3078313565322c3078313565322c3078313565322c3078313565322c3078313565322c3078313565322c3078313565322c,
  0x202020203078313565322c3078313565322c3078313565322c3078313565322c3078313565322c3078313565322c3078313565322c3078313565322c3078313565322c3078313565322c3078313565322c3078313565322c3078313565322c3078313565322c3078313565322c3078313565322c,
  0x202020203078313565322c3078313565322c3078313565322c3078313565322c3078313565322c3078313565322c3078313565322c3078313565322c3078313565322c3078313565322c3078313565322c3078313565322c3078313565322c3078313565322c3078313565322c3078313565322c,
  0x202020203078313565322c3078313565322c3078313565322c3078313565322c3078313565322c3078313565322c3078313565322c3078313565322c3078313565322c3078313565322c3078313565322c3078313565322c3078313565322c3078313565322c3078313565322c3078313565322c,
  0x202020203078313565322c3078313565322c3078313565322c3078313565322c3078313565322c3078313565322c3078313565322c3078313565322c3078313565322c3078313565322c3078313565322c3078313565322c3078313565322c3078313565322c3078313565322c3078313565322c,
  0x202020203078313565322c3078313565322c3078313565322c3078313565322c3078313565322c3078313565322c3078313565322c3078313565322c3078313565322c3078313565322c3078313565322c3078313565322c3078313565322c3078313565322c3078313565322c3078313565322c,
  0x202020203078313565322c3078313565322c3078313565322c3078313565322c3078313565322c3078313565322c3078313565322c3078313565322c3078313565322c3078313565322c3078313565322c3078313565322c3078313565322c3078313565322c3078313565322c3078313565322c,
  0x202020203078313565322c3078313565322c3078313565322c3078313565322c3078313565322c3078313565322c3078313565322c3078313565322c3078313565322c3078313565322c3078313565322c3078313565322c3078313565322c3078313565322c3078313565322c3078313565322c,
  0x202020203078313565322c3078313565322c3078313565322c3078313565322c3078313565322c3078313565322c3078313565322c3078313565322c3078313565322c3078313565322c3078313565322c3078313565322c3078313565322c3078313565322c3078313565322c3078313565322c,
  0x202020203078313565322c3078313565322c3078313565322c3078313565322c3078313565322c3078313565322c3078313565322c3078313565322c3078313565322c3078313565322c3078313565322c3078313565322c3078313565322c3078313565322c3078313565322c3078313565322c,
  0x202020203078313565322c3078313565322c3078313565322c3078313565322c3078313565322c3078313565322c3078313565322c3078313565322c3078313565322c3078313565322c3078313565322c3078313565322c3078313565322c3078313565322c3078313565322c3078313565322c,
  0x202020203078313565322c3078313565322c3078313565322c3078313565322c3078313565322c3078313565322c3078313565322c3078313565322c3078313565322c3078313565322c3078313565322c3078313565322c3078313565322c3078313565392c3078316133302c3078313262352c,
  0x202020203078313731662c3078313732352c3078313732352c3078313732352c3078313732352c3078313732352c3078313732352c3078313732352c3078313732352c3078313732352c3078313732352c3078313732352c3078313732352c3078313732352c3078313732352c3078313732352c,
  0x202020203078313732352c3078313732352c3078313732352c3078313732352c3078313732352c3078313732352c3078313732352c3078313732352c3078313732352c3078313732352c3078313732352c3078313732352c3078313732352c3078313732352c3078313732352c3078313732352c,
  0x202020203078313732352c3078313732352c3078313732352c3078313732352c30786135382c3078313732642c30786136302c3078316135302c3078313964622c3078313964622c3078313964622c3078313964622c3078313964622c3078313964622c3078313964622c3078313964622c,
  0x202020203078313964372c30786430322c3078313965622c3078313965332c3078313965642c3078316135382c3078316135382c30786439362c3078313864392c3078313934652c3078313961332c3078313961372c3078313939622c3078316230392c30786362382c30786362622c,
  0x202020203078313930392c30786339302c3078313935362c30786363332c3078313966352c3078313966382c30786430612c3078316136302c3078316130382c3078316130302c30786431322c30786439652c3078316136382c3078316136632c30786461362c30786666302c,
  0x202020203078316131302c30786431612c30786432322c3078316137342c3078316138342c3078316137632c30786461652c30786566372c30786534352c30786534642c3078316338352c30786661382c3078316433322c3078316433322c3078316138632c30786462362c,
  0x202020203078313637342c3078313637352c3078313637362c3078313637372c3078313637382c3078313637392c3078313637612c3078313637342c3078313637352c3078313637362c3078313637372c3078313637382c3078313637392c3078313637612c3078313637342c3078313637352c,
  0x202020203078313637362c3078313637372c3078313637382c3078313637392c3078313637612c3078313637342c3078313637352c3078313637362c3078313637372c3078313637382c3078313637392c3078313637612c3078313637342c3078313637352c3078313637362c3078313637372c,
  0x202020203078313637382c3078313637392c3078313637612c3078313637342c3078313637352c3078313637362c3078313637372c3078313637382c3078313637392c3078313637612c3078313637342c3078313637352c3078313637362c3078313637372c3078313637382c3078313637392c,
  0x202020203078313637612c3078313637342c3078313637352c3078313637362c3078313637372c3078313637382c3078313637392c3078313637612c3078313637342c3078313637352c3078313637362c3078313637372c3078313637382c3078313637392c3078313637612c3078313637342c,
  0x202020203078313637352c3078313637362c3078313637372c3078313637382c3078313637392c3078313637612c3078313637342c3078313637352c3078313637362c3078313637372c3078313637382c3078313637392c3078313637612c3078313637342c3078313637352c3078313637362c,
  0x202020203078313637372c3078313637382c3078313637392c3078313637612c3078313637342c3078313637352c3078313637362c3078313637372c3078313637382c3078313637392c3078313637612c3078313637342c3078313637352c3078313637362c3078313637372c3078313637382c,
  0x202020203078313637392c3078313637612c3078313637342c3078313637352c3078313637362c3078313637372c3078313637382c3078313637392c3078313637612c3078313637342c3078313637352c3078313637362c3078313637372c3078313637382c3078313637392c3078313637612c,
  0x202020203078313637342c3078313637352c3078313637362c3078313637372c3078313637382c3078313637392c3078313637612c3078313637342c3078313637352c3078313637362c3078313637372c3078313637382c3078313637392c3078313637612c3078313637342c3078313637352c,
  0x202020203078313637362c3078313637372c3078313637382c3078313637392c3078313637612c3078313637342c3078313637352c3078313637362c3078313637372c3078313637382c3078313637392c3078313637612c3078313637342c3078313637352c3078313637362c3078313637372c,
  0x202020203078313637382c3078313637392c3078313637612c3078313637342c3078313637352c3078313637362c3078313637372c3078313637382c3078313637392c3078313637612c3078313637342c3078313637352c3078313637362c3078313637372c3078313637382c3078313637392c,
  0x202020203078313637612c3078313637342c3078313637352c3078313637362c3078313637372c3078313637382c3078313637392c3078313637612c3078313637342c3078313637352c3078313637362c3078313637372c3078313637382c3078313637392c3078313637612c3078313637342c,
  0x202020203078313637352c3078313637362c3078313637372c3078313637382c3078313637392c3078313637612c3078313637342c3078313637352c3078313637362c3078313637372c3078313637382c3078313637392c3078313637612c3078313637342c3078313637352c3078313637362c,
  0x202020203078313637372c3078313637382c3078313637392c3078313637612c3078313637342c3078313637352c3078313637362c3078313637372c3078313637382c3078313637392c3078313637612c3078313637342c3078313637352c3078313637362c3078313637372c3078313637382c,
  0x202020203078313637392c3078313637612c3078313637342c3078313637352c3078313637362c3078313637372c3078313637382c3078313637392c3078313637612c3078313637342c3078313637352c3078313637362c3078313637372c3078313637382c3078313637392c3078313637612c,
  0x202020203078313637342c3078313637352c3078313637362c3078313637372c3078313637382c3078313637392c3078313637612c3078313637342c3078313637352c3078313637362c3078313637372c3078313637382c3078313637392c3078313637612c3078313637342c3078313637352c,
  0x202020203078313637362c3078313637372c3078313637382c3078313637392c3078313637612c3078313637342c3078313637352c3078313637362c3078313637372c3078313637382c3078313637392c3078313637612c3078313637342c3078313637352c3078313637362c3078313637372c,
  0x202020203078313637382c3078313637392c3078313637612c3078313637342c3078313637352c3078313637362c3078313637372c3078313637382c3078313637392c3078313637612c3078313637342c3078313637352c3078313637362c3078313637372c3078313637382c3078313637392c,
  0x202020203078313637612c3078313637342c3078313637352c3078313637362c3078313637372c3078313637382c3078313637392c3078313637612c3078313637342c3078313637352c3078313637362c3078313637372c3078313637382c3078313637392c3078313637612c3078313637342c,
  0x202020203078313637352c3078313637362c3078313637372c3078313637382c3078313637392c3078313637612c3078313637342c3078313637352c3078313637362c3078313637372c3078313637382c3078313637392c3078313637612c3078313637342c3078313637352c3078313637362c,
  0x202020203078313637372c3078313637382c3078313637392c3078313637612c3078313637342c3078313637352c3078313637362c3078313637372c3078313637382c3078313637392c3078313637612c3078313637342c3078313637352c3078313637362c3078313637372c3078313637382c,
  0x202020203078313637392c3078313637612c3078313637342c3078313637352c3078313637362c3078313637372c3078313637382c3078313637392c3078313637612c3078313637342c3078313637352c3078313637362c3078313637372c3078313637382c3078313637392c3078313637612c,
  0x202020203078313637342c3078313637352c3078313637362c3078313637372c3078313637382c3078313637392c3078313637612c3078313637342c3078313637352c3078313637362c3078313637372c3078313637382c3078313637392c30786136382c30786462652c30786463312c,
  0x2020202030783530382c30783530382c30783530382c30783530382c30783530382c30783530382c30783530382c30783530382c30783530382c30783530382c30783530382c30783530382c30783530382c30783530382c30783530382c30783530382c,
  0x2020202030783530382c30783530382c30783530382c30783530382c30783530382c30783530382c30783530382c30783530382c30783530382c30783530382c30783530382c30783530382c30783530382c30783530382c30783530382c30783530382c,
  0x202020203078313634632c3078313634632c3078313634632c3078313634632c3078313634632c3078313634632c3078313634632c3078313634632c3078313634632c3078313634632c3078313634632c3078313634632c3078313634632c3078313634632c3078313634632c3078313634632c,
  0x202020203078313634632c3078313634632c3078313634632c3078313634632c3078313634632c3078313634632c3078313634632c3078313634632c3078313634632c3078313634632c3078313634632c3078313634632c3078313634632c3078313634632c3078313634632c3078313634632c,
  0x202020203078313534352c3078313534352c3078313534352c3078313534352c3078313534352c3078313534352c3078313534352c3078313534352c3078313534352c3078313534352c3078313534352c3078313534352c3078313534352c3078313534352c3078313534352c3078313534352c,
  0x202020203078313534352c3078313534352c3078313534352c3078313534352c3078313534352c3078313534352c3078313534352c3078313534352c3078313534352c3078313534352c3078313534352c3078313534352c3078313534352c3078313534352c3078313534352c3078313534352c,
  0x202020203078313534352c3078313534352c3078313534352c3078313534352c3078313534352c3078313534352c3078313534352c3078313534352c3078313534352c3078313534352c3078313534352c3078313534352c3078313534352c3078313534352c3078313534352c3078313534352c,
  0x202020203078313534352c3078313534352c3078313534352c3078313534352c3078313534352c3078313534352c3078313534352c3078313534352c3078313534352c3078313534352c3078313534352c3078313534352c3078313534352c3078313534352c3078313534352c3078313534352c,
  0x202020203078313534352c3078313534352c3078313534352c3078313534352c3078313534352c3078313534352c3078313534352c3078313534352c3078313534352c3078313534352c3078313534352c3078313534352c3078313534352c3078313534352c3078313534352c3078313534352c,
  0x202020203078313534352c3078313534352c3078313534352c3078313534352c3078313534352c3078313534352c3078313534352c3078313534352c3078313534352c3078313534352c3078313534352c3078313534352c3078313534352c3078313534352c3078313534352c3078313534352c,
  0x202020203078313534352c3078313534352c3078313534352c3078313534352c3078313534352c3078313534352c3078313534352c3078313534352c3078313534352c3078313534352c3078313534352c3078313534352c3078313534352c3078313534352c3078313534352c3078313534352c,
  0x202020203078313534352c3078313534352c3078313534352c3078313534352c3078313534352c3078313534352c3078313534352c3078313534352c3078313534352c3078313534352c3078313534352c3078313534352c3078313534352c3078313534352c3078313534352c3078313534352c,
  0x202020203078313534352c3078313534352c3078313534352c3078313534352c3078313534352c3078313534352c3078313534352c3078313534352c3078313534352c3078313534352c3078313534352c3078313534352c3078313534352c3078313534352c3078313534352c3078313534352c,
  0x202020203078313534352c3078313534352c3078313534352c3078313534352c3078313534352c3078313534352c3078313534352c3078313534352c3078313534352c3078313534352c3078313534352c3078313534352c3078313534352c3078313534352c3078313534352c3078313534352c,
  0x202020203078313534352c3078313534352c3078313534352c3078313534352c3078313534352c3078313534352c3078313534352c3078313534352c3078313534352c3078313534352c3078313534352c3078313534352c3078313534352c3078313534352c3078313534352c3078313534352c,
  0x202020203078313534352c3078313534352c3078313534352c3078313534352c3078313534352c3078313534352c3078313534352c3078313534352c3078313534352c3078313534352c3078313534352c3078313534352c3078313534352c3078313534352c3078313534352c3078313534352c,
  0x202020203078313534352c3078313534352c3078313534352c3078313534352c3078313534352c3078313534352c3078313534352c3078313534352c3078313566312c3078313566312c3078313566312c3078313566312c3078313566312c3078313566312c3078313566312c3078313566312c,
  0x202020203078313566362c3078313566652c3078313833392c3078313262642c3078313931392c3078313931392c3078313263312c3078313263382c30786137302c30786137382c30786138302c3078313462322c3078313462392c3078313463312c30786138382c3078313463392c,
  0x202020203078313466612c3078313466612c3078313461322c3078313461612c3078313464312c3078313466312c3078313466322c3078313530322c3078313464392c3078313439612c30786139302c3078313465312c30786139382c3078313465392c30786161302c30786161342c,
  0x2020202030786361302c3078313530612c30786161632c30786162342c3078313531322c3078313531382c3078313531642c30786162632c30786163632c3078313536322c3078313536612c3078313534642c3078313535322c30786164342c30786164632c30786163342c,
  0x202020203078313633632c3078313633632c3078313633632c3078313633632c3078313633632c3078313633632c3078313633632c3078313633632c3078313633632c3078313633632c3078313633632c3078313633632c3078313633632c3078313633632c3078313633632c3078313633632c,
  0x202020203078313633632c3078313633632c3078313633632c3078313633632c3078313633632c3078313633632c3078313633632c3078313633632c3078313633632c3078313633632c3078313633632c3078313633632c3078313634342c3078313634342c3078313634342c3078313634342c,
  0x202020203078313432302c3078313432302c3078313436302c3078313461302c3078313465302c3078313532302c3078313536302c3078313561302c3078313564632c3078313631632c3078313634382c3078313638382c3078313663382c3078313730382c3078313734382c3078313738382c,
  0x202020203078313763382c3078313830342c3078313834342c3078313838342c3078313863342c3078313866382c3078313933342c3078313937342c3078313962342c3078313966342c3078316133302c3078316137302c3078316162302c3078316166302c3078316233302c3078316237302c,
  0x2020202030786138302c30786163302c30786230302c30786234302c30786238302c30786134302c30786537352c30786134302c30786539372c30786134302c30786134302c30786134302c30786134302c30786263302c3078313264642c3078313264642c,
  0x2020202030786564372c30786330302c30786134302c30786134302c30786134302c30786134302c30786631372c30786332642c30786134302c30786134302c30786336642c30786361642c30786365642c30786432642c30786533352c30786461352c,
  0x202020203078313231642c3078313231642c3078313231642c3078313231642c3078313231642c3078313231642c3078313231642c3078313231642c3078313231642c3078313231642c3078313231642c3078313231642c3078313231642c3078313231642c3078313231642c3078313231642c,
  0x202020203078313231642c3078313231642c3078313231642c3078313231642c30786635372c3078313235642c3078313039322c3078313064322c3078313239642c3078313064642c3078313331642c3078313331642c3078313331642c30786639372c30786662372c30786666372c,
  0x202020203078313335642c3078313335642c3078313033372c30786662372c30786662372c30786662372c30786662372c30786662372c30786662372c30786662372c30786662372c30786662372c30786662372c30786662372c30786662372c30786662372c,
  0x2020202030786662372c30786662372c30786662372c30786662372c30786662372c30786662372c30786662372c30786662372c30786662372c30786662372c30786662372c30786662372c30786662372c30786662372c30786662372c3078313035322c,
  0x2020202030786134302c30786134302c30786134302c30786134302c30786134302c30786134302c30786134302c30786134302c30786134302c30786134302c30786134302c30786134302c30786134302c30786134302c30786134302c30786134302c,
  0x2020202030786134302c30786134302c30786134302c30786134302c30786134302c30786134302c30786134302c30786134302c30786134302c30786134302c30786134302c30786134302c30786134302c30786134302c30786134302c30786436352c,
  0x2020202030786134302c30786134302c30786134302c30786134302c30786134302c30786134302c30786134302c30786134302c30786134302c30786134302c30786134302c30786134302c30786134302c30786134302c30786134302c30786134302c,
  0x2020202030786134302c30786134302c30786134302c30786134302c30786134302c30786134302c30786134302c30786134302c30786134302c30786134302c30786134302c30786134302c30786134302c30786134302c30786134302c30786436352c,
  0x2020202030786134302c30786134302c30786134302c30786134302c30786134302c30786134302c30786134302c30786134302c30786134302c30786134302c30786134302c30786134302c30786134302c30786134302c30786134302c30786134302c,
  0x2020202030786134302c30786134302c30786134302c30786134302c30786134302c30786134302c30786134302c30786134302c30786134302c30786134302c30786134302c30786134302c30786134302c30786134302c30786134302c30786436352c,
  0x2020202030786134302c30786134302c30786134302c30786134302c30786134302c30786134302c30786134302c30786134302c30786134302c30786134302c30786134302c30786134302c30786134302c30786134302c30786134302c30786134302c,
  0x2020202030786134302c30786134302c30786134302c30786134302c30786134302c30786134302c30786134302c30786134302c30786134302c30786134302c30786134302c30786134302c30786134302c30786134302c30786134302c30786436352c,
  0x2020202030786134302c30786134302c30786134302c30786134302c30786134302c30786134302c30786134302c30786134302c30786134302c30786134302c30786134302c30786134302c30786134302c30786134302c30786134302c30786134302c,
  0x2020202030786134302c30786134302c30786134302c30786134302c30786134302c30786134302c30786134302c30786134302c30786134302c30786134302c30786134302c30786134302c30786134302c30786134302c30786134302c30786436352c,
  0x2020202030786134302c30786134302c30786134302c30786134302c30786134302c30786134302c30786134302c30786134302c30786134302c30786134302c30786134302c30786134302c30786134302c30786134302c30786134302c30786134302c,
  0x2020202030786134302c30786134302c30786134302c30786134302c30786134302c30786134302c30786134302c30786134302c30786134302c30786134302c30786134302c30786134302c30786134302c30786134302c30786134302c30786436352c,
  0x2020202030786134302c30786134302c30786134302c30786134302c30786134302c30786134302c30786134302c30786134302c30786134302c30786134302c30786134302c30786134302c30786134302c30786134302c30786134302c30786134302c,
  0x2020202030786134302c30786134302c30786134302c30786134302c30786134302c30786134302c30786134302c30786134302c30786134302c30786134302c30786134302c30786134302c30786134302c30786134302c30786134302c30786436352c,
  0x2020202030786134302c30786134302c30786134302c30786134302c30786134302c30786134302c30786134302c30786134302c30786134302c30786134302c30786134302c30786134302c30786134302c30786134302c30786134302c30786134302c,
  0x2020202030786134302c30786134302c30786134302c30786134302c30786134302c30786134302c30786134302c30786134302c30786134302c30786134302c30786134302c30786134302c30786134302c30786134302c30786134302c30786436352c,
  0x2020202030786134302c30786134302c30786134302c30786134302c30786134302c30786134302c30786134302c30786134302c30786134302c30786134302c30786134302c30786134302c30786134302c30786134302c30786134302c30786134302c,
  0x2020202030786134302c30786134302c30786134302c30786134302c30786134302c30786134302c30786134302c30786134302c30786134302c30786134302c30786134302c30786134302c30786134302c30786134302c30786134302c30786436352c,
  0x2020202030786134302c30786134302c30786134302c30786134302c30786134302c30786134302c30786134302c30786134302c30786134302c30786134302c30786134302c30786134302c30786134302c30786134302c30786134302c30786134302c,
  0x2020202030786134302c30786134302c30786134302c30786134302c30786134302c30786134302c30786134302c30786134302c30786134302c30786134302c30786134302c30786134302c30786134302c30786134302c30786134302c30786436352c,
  0x2020202030786465352c30786466352c30786134302c30786134302c30786134302c30786134302c30786134302c30786134302c30786134302c30786134302c30786134302c30786134302c30786134302c30786134302c30786134302c30786134302c,
  0x2020202030786134302c30786134302c30786134302c30786134302c30786134302c30786134302c30786134302c30786134302c30786134302c30786134302c30786134302c30786134302c30786134302c30786134302c30786134302c30786436352c,
  0x202020203078313139642c3078313139642c3078313139642c3078313139642c3078313139642c3078313139642c3078313139642c3078313139642c3078313139642c3078313139642c3078313139642c3078313139642c3078313139642c3078313139642c3078313139642c3078313139642c,
  0x202020203078313139642c3078313139642c3078313139642c3078313139642c3078313139642c3078313139642c3078313139642c3078313139642c3078313139642c3078313139642c3078313139642c3078313139642c3078313139642c3078313139642c3078313139642c3078313131642c,
  0x202020203078313164642c3078313164642c3078313164642c3078313164642c3078313164642c3078313164642c3078313164642c3078313164642c3078313164642c3078313164642c3078313164642c3078313164642c3078313164642c3078313164642c3078313164642c3078313164642c,
  0x202020203078313164642c3078313164642c3078313164642c3078313164642c3078313164642c3078313164642c3078313164642c3078313164642c3078313164642c3078313164642c3078313164642c3078313164642c3078313164642c3078313164642c3078313164642c3078313135642c,
  0x2020202030783530382c30783530382c30783530382c30783530382c30783530382c30783530382c30783530382c30783530382c30783530382c30783530382c30783530382c30783530382c30783530382c30783530382c30783530382c30783530382c,
  0x2020202030783530382c30783530382c30783530382c30783530382c30783530382c30783530382c30783530382c30783530382c30783530382c30783530382c30783530382c30783530382c30783530382c30783530382c30783530382c30783530382c,
  0x2020202030783530382c30783530382c30783530382c30783530382c30783530382c30783530382c30783530382c30783530382c30783530382c30783530382c30783530382c30783530382c30783530382c30783530382c30783530382c30783530382c,
  0x2020202030783530382c30783530382c30783530382c30783530382c30783530382c30783530382c30783530382c30783530382c30783530382c30783530382c30783530382c30783530382c30783530382c30783530382c30783530382c30783530382c,
  0x2020202030786261342c30786261622c30786262332c30786262622c3078313838312c3078313838312c3078313838312c30786263332c30786263622c30786263652c3078313862312c3078313861392c30786330312c30786432612c30786432652c30786433322c,
  0x2020202030783530382c30783530382c30783530382c30783530382c30786433612c3078316131382c30786434322c30786633662c3078313733352c30786165342c30786165612c3078313030302c30786264362c3078313865392c30786337622c30783530382c,
  0x202020203078313734612c3078313733642c3078313734322c3078313838392c30786264652c30786265362c3078313133342c3078313133612c3078316336642c30786635642c3078316335642c30783666382c30783530382c30783530382c30783530382c30783530382c,
  0x202020203078316338642c3078316338642c3078316338642c3078316338642c3078316338642c3078316338642c3078316338642c3078316338642c3078316338642c30786662302c30786662382c30786663302c30783530382c30783530382c30783530382c30783530382c,
  0x2020202030786265652c30786266312c30786463392c3078316364352c30786666382c30783730302c30783530382c3078313039322c30786363622c30786434612c30783530382c30783530382c3078316330322c30786566662c30786630372c3078316431642c,
  0x2020202030786335352c30786335632c30786336342c3078316139342c3078316362352c30783530382c3078316339352c30786664302c3078316139632c30786464312c30786464392c30786465312c3078313032302c30783730382c30783530382c30783530382c,
  0x202020203078316161342c3078316161342c30783731302c30783530382c3078316434612c3078313061612c3078316434322c3078313062322c3078316530652c3078313161632c30783530382c30783530382c30783530382c30783530382c30783530382c30783530382c,
  0x2020202030783530382c30783530382c30783530382c30786465392c3078316536362c3078313239312c30783530382c30783530382c3078316532652c3078313164342c3078313164622c30783731382c30783530382c30783731632c3078313234382c3078313165332c,
  0x202020203078316231392c3078316231622c30786535352c30786535632c3078316161632c3078316162342c30786466312c30786631662c3078316266612c30786565372c30786565662c30786663382c3078316331612c3078316331652c3078316332362c3078313034302c,
  0x2020202030786639332c30786639382c30783732342c30783530382c3078313039612c3078313061322c3078316337642c30786661302c30786637352c30786637622c30786638332c30786638622c30783530382c30783530382c30783530382c30783530382c,
  0x202020203078316461612c3078316461322c3078313132342c3078313132632c3078316366642c3078316366352c3078313036382c30783530382c30783530382c30783530382c30783530382c30783530382c3078316365352c3078313032382c3078313033302c3078313033382c,
  0x202020203078316361642c3078316361352c30786665302c3078313131632c3078316332652c30786632662c30783732632c30783530382c3078313037382c3078313038302c30783530382c30783530382c30783530382c30783530382c30783530382c30783530382c,
  0x202020203078316530362c3078313138652c30783733342c30783530382c30783530382c3078316430642c3078316430352c3078313037302c3078313235302c3078313235362c3078313235652c30783530382c30783530382c3078313165622c3078313165662c3078313166372c,
  0x202020203078316464652c3078316464362c3078313137362c3078316463652c3078316463362c30783733632c3078316364642c3078313031382c30783530382c30783530382c30783530382c30783530382c30783530382c30783530382c30783530382c30783530382c,
  0x202020203078313064612c3078313064662c3078313065372c3078313065652c3078313130652c3078313131342c30783530382c30783530382c3078313135612c3078313135652c3078313136362c3078313139652c3078313161342c30783734342c30783530382c30783530382c,
  0x2020202030783530382c30783530382c30783530382c30783530382c30783530382c30783530382c30783530382c3078313162632c30783530382c30783530382c30783530382c30783530382c30783530382c30783734382c3078316534652c3078313233382c,
  0x202020203078313935652c3078313935652c3078313935652c3078313935652c3078313935652c3078313935652c3078313935652c3078313935652c3078313935652c3078313935652c3078313935652c3078313935652c3078313935652c3078313935652c3078313935652c3078313935652c,
  0x202020203078313935652c3078313935652c3078313935652c3078313935652c3078313935652c3078313935652c3078313935652c3078313935652c3078313935652c3078313935652c3078313935652c3078313936332c30786364332c30786364612c30786364612c30786364612c,
  0x202020203078313936622c3078313936622c3078313936622c30786365322c3078316433612c3078316433612c3078316433612c3078316433612c3078316433612c3078316433612c30783735302c30783530382c30783530382c30783530382c30783530382c30783530382c,
  0x2020202030783530382c30783530382c30783530382c30783530382c30783530382c30783530382c30783530382c30783530382c30783530382c30783530382c30783530382c30783530382c30783530382c30783530382c30783530382c30783530382c,
  0x202020203078316232332c3078316232332c3078316232332c3078316232332c3078316232332c3078316232332c3078316232332c3078316232332c3078316232332c3078316232332c3078316232332c3078316232332c3078316232332c3078316232332c3078316232332c3078316232332c,
  0x202020203078316232332c30786536342c30786665382c30783735382c30783530382c30783530382c30783735632c30786633372c3078316363642c3078316363352c3078313030382c3078313031302c30783736342c30783530382c30783530382c30783530382c,
  0x2020202030783530382c30783530382c30783530382c30783530382c30783530382c30783530382c30783530382c30783530382c30783530382c30783530382c30783530382c30783530382c30783530382c30783530382c30783530382c30783530382c,
  0x2020202030783530382c30783530382c3078316532362c3078316531652c3078313163632c30783530382c30783530382c30783530382c3078316331322c3078316331322c30786630662c3078316330612c30786631372c30783530382c30783530382c3078313130362c,
  0x202020203078316462612c3078316462612c3078316462612c3078316462612c3078316462612c3078316462612c3078316462612c3078316462612c3078316462612c3078316462612c3078316462612c3078316462612c3078316462612c3078316462612c3078316462612c3078316462612c,
  0x202020203078316462612c3078316462612c3078316462612c3078316462612c3078316462612c3078316462612c3078316462612c3078316462652c3078316537362c3078316537362c3078316537362c3078316537362c3078316537362c3078316537362c3078316537362c3078316537362c,
  0x202020203078316537362c3078316537362c3078316537362c3078316537362c3078316537362c3078316537362c3078313236362c3078313236632c3078313238362c3078313238392c3078313238392c3078313238392c30783736632c30783530382c30783530382c30783530382c,
  0x2020202030783530382c30783530382c30783530382c30783530382c30783530382c30783530382c30783530382c30783530382c30783530382c30783530382c30783530382c30783530382c30783530382c30783530382c30783530382c30783530382c,
  0x2020202030783530382c30783530382c30783530382c30783530382c30783530382c30783530382c30783530382c30783530382c30783530382c30783530382c30783530382c30783530382c30783530382c3078316336352c3078316336352c3078316336352c,
  0x2020202030786635302c30786635352c30783737342c30783530382c30783530382c30783530382c30783530382c30783530382c30783530382c30783530382c30783530382c30783530382c30783530382c30783530382c30783530382c30783530382c,
  0x2020202030783530382c30783530382c30783530382c30783530382c30783530382c30783530382c30783530382c30783530382c30783530382c30783530382c30783530382c30783530382c30783530382c3078313735322c3078313735322c3078313735322c,
  0x202020203078313735322c3078313735322c3078313735322c3078313735322c30786166322c3078313736322c30786166612c3078313736332c3078313735612c3078313736622c3078313737312c3078313737392c30786230322c3078313861312c3078313861312c30783737632c,
  0x2020202030783530382c30783530382c30783530382c30783530382c3078313163342c3078313839312c3078313839312c30786266392c30786365612c30783530382c30783530382c30783530382c30783530382c3078313761612c3078313762312c30786230612c,
  0x202020203078313762342c30786231322c30786231612c30786232322c3078313761652c30786232612c30786233322c30786233612c3078313762332c3078313762622c3078313761612c3078313762312c3078313761642c3078313762342c3078313762632c3078313761622c,
  0x202020203078313762322c3078313761652c30786234312c3078313738312c3078313738392c3078313739302c3078313739372c3078313738342c3078313738632c3078313739332c3078313739612c30786234392c3078313761322c3078316436322c3078316436322c3078316436322c,
  0x202020203078316436322c3078316436322c3078316436322c3078316436322c3078316436322c3078316436322c3078316436322c3078316436322c3078316436322c3078316436322c3078316436322c3078316436322c3078316436322c3078316435322c3078316435352c3078316435322c,
  0x202020203078316435632c3078313063612c30783738342c30783530382c30783530382c30783530382c30783530382c30783530382c30783530382c30783530382c30783530382c30783530382c30783530382c30783530382c30783530382c30783530382c,
  0x2020202030783530382c30783530382c30783530382c30783530382c30783530382c30783530382c30783530382c30783530382c30783530382c30783530382c30783530382c30783530382c30783530382c30783530382c30783530382c30783530382c,
  0x2020202030783530382c30783530382c30783530382c30783530382c30783530382c30783530382c30783530382c30783530382c30783530382c30783530382c30783530382c30783530382c30783530382c3078313066652c30783738632c30783530382c,
  0x2020202030783530382c30783530382c30783530382c30783530382c30783530382c3078316534362c3078313166662c30783739342c30783530382c30783530382c30783530382c30783530382c30783530382c30783530382c30783530382c30783530382c,
  0x2020202030783530382c30783530382c30783530382c3078316535362c3078313234302c30783530382c30783530382c30783530382c30783530382c30783530382c30783530382c30783530382c30783530382c30783530382c30783530382c30783530382c,
  0x2020202030783530382c30783530382c30783530382c30783530382c30783530382c30783530382c30783530382c30783530382c30783530382c30783530382c30783530382c30783530382c30783530382c30783530382c30783530382c30783530382c,
  0x2020202030783530382c30783530382c30783530382c30783530382c30783530382c30783530382c30783530382c30783530382c30783530382c30783530382c30783530382c30783530382c30783530382c3078316339642c3078316339642c3078316339642c,
  0x202020203078316339642c3078316339642c3078316339642c30786664382c30783530382c3078316439612c3078316439322c3078313064322c30783530382c30783530382c30783530382c30783530382c30783530382c30783530382c30783530382c30783530382c,
  0x2020202030783530382c30783530382c30783530382c30783530382c30783530382c30783530382c30783530382c30783530382c30783530382c30783530382c30783530382c30783530382c30783530382c30783530382c30783530382c30783530382c,
  0x2020202030783739382c3078316531362c3078313162342c30783530382c30783530382c3078313230372c3078313230382c30783761302c30783530382c30783530382c30783530382c30783530382c30783530382c30786561632c30786562342c30786562632c,
  0x2020202030786563342c30786563632c30786564342c30786564622c30786564662c30783530382c30783530382c30783530382c30783530382c30783530382c30783530382c30783530382c30783530382c30783530382c30783530382c30783530382c,
  0x2020202030783530382c30783530382c30783530382c30783530382c30783530382c30783530382c30783530382c30783530382c30783530382c30783530382c30783530382c30783530382c30783530382c30783530382c30783530382c30783530382c,
  0x2020202030783530382c30783530382c30783530382c30783530382c30783530382c30783530382c30783530382c30783530382c30783530382c30783530382c30783530382c30783530382c30783530382c30783530382c30783530382c30783530382c,
  0x2020202030783530382c30783530382c30783530382c30783530382c30783530382c30783530382c30783530382c30783530382c30783530382c30783530382c30783530382c30783530382c30783530382c30783530382c30783530382c30783530382c,
  0x2020202030783530382c30783530382c30783530382c30783530382c30783761342c3078313034382c3078316365642c3078313034652c3078316365642c3078313035362c3078313035622c3078313036302c3078313036302c3078316437322c3078316438322c3078316438612c,
  0x202020203078313062612c3078316437612c3078316533362c3078313063322c3078316465652c3078316533652c3078316533652c3078313137652c3078313138362c3078313231662c3078313232352c3078313232612c3078313233302c3078316535652c3078316535652c3078316535652c,
  0x202020203078316535652c3078313237342c3078316535652c3078313237612c3078313237652c30783761632c30783761632c30783761632c30783761632c30783761632c30783761632c30783761632c30783761632c30783761632c30783761632c30783761632c,
  0x2020202030783761632c30783761632c30783761632c30783761632c30783761632c30783761632c30783761632c30783761632c30783761632c30783761632c30783761632c30783761632c30783761632c30783761632c30783761632c30783761632c,
  0x2020202030783761632c30783761632c30783761632c30783761632c30783761642c30786235312c3078313763342c3078313763342c3078313763342c30783762352c30783762352c30783762352c30783762352c3078313839392c3078313839392c3078313839392c,
  0x202020203078313839392c3078313839392c3078313839392c3078313839392c30783762642c30783762352c30783762352c30783762352c30783762352c30783762352c30783762352c30783762352c30783762352c30783762352c30783762352c30783762352c,
  0x2020202030783762352c30783762352c30783762352c30783762352c30783762352c30783762352c30783762352c30783762352c30783762352c30783762352c30783762352c30783762352c30783762352c30783762352c30783762352c30783762352c,
  0x2020202030783762352c30783762352c30783762352c30783762352c30783762352c30783762352c30783762352c30783762352c30783762352c30783762352c30783762352c30783762352c30783762352c30783762352c30783762352c30783762352c,
  0x2020202030783762352c30783762352c30783762352c30783762352c30783762352c30783762352c30783762352c30783762352c30783762352c30783762352c30783762352c30783762352c30783762352c30783762352c30783762352c30783762352c,
  0x2020202030783762352c30783762352c30783762352c30783762352c30783762352c3078316132302c30786435322c3078316132382c3078316132382c30786435362c30786536632c30786537342c30786537632c3078316165392c3078316164312c3078316166312c,
  0x202020203078316166392c3078316165312c30786530312c30786530352c30786530632c30786531342c30786531622c30786532332c30786532622c30786532642c30786532642c30786532642c30786532642c3078316235612c3078316236322c3078316235612c,
  0x202020203078316236382c3078316237302c3078316233622c3078316237382c3078316238302c3078316235612c3078316238382c3078316239302c3078316239372c3078316239662c3078316234332c3078316235612c3078316261342c3078316234622c3078316235322c3078316261632c,
  0x202020203078316262322c3078316334652c3078316335352c3078316334362c3078316262612c3078316263322c3078316263612c3078316264322c3078316362642c3078316264612c3078316265322c30786538342c30786538632c3078316232622c3078316232622c3078316232622c,
  0x2020202030786539342c3078316337352c3078316337352c30786636352c30786636642c3078316162632c3078316162632c3078316162632c3078316162632c3078316162632c3078316162632c3078316162632c3078316162632c3078316162632c3078316162632c3078316162632c,
  0x202020203078316162632c3078316162632c3078316162632c3078316162632c3078316162632c3078316162632c3078316162632c3078316162652c3078316162632c3078316163362c3078316162632c3078316162632c3078316162632c3078316162632c3078316162632c3078316162632c,
  0x202020203078316163392c3078316162632c3078316162632c3078316162632c3078316162632c3078316162632c30786466392c30783530382c30783530382c30783530382c30783530382c30783530382c30783530382c30783530382c30783530382c30783530382c,
  0x2020202030783530382c30783530382c30783530382c30783530382c30783530382c30783530382c30783530382c30783530382c30783530382c30783530382c30783530382c30783530382c30783530382c30783530382c30783530382c30783530382c,
  0x2020202030783530382c30783530382c30783530382c30783530382c30783530382c30783530382c30783530382c3078316432352c3078316432352c3078316432352c3078316432352c3078316432352c3078316432352c3078316432352c3078316432352c3078316432352c,
  0x202020203078316432352c3078316432352c3078316432352c3078316432352c3078316432352c3078316432612c3078316432352c3078316432352c3078316432352c3078313038382c3078313038612c30783530382c30783530382c30783530382c30783530382c30783530382c,
  0x2020202030783530382c30783530382c30783530382c30783530382c30783530382c30783530382c30783530382c3078316462322c3078316462322c3078316462322c3078316462322c3078316462322c3078316462322c3078316462322c3078316462322c3078316462322c,
  0x202020203078316462322c3078316462322c3078316462322c3078316462322c3078316462322c3078316462322c3078316462322c3078316462322c3078316462322c3078316462322c3078316462322c3078316462322c3078316462322c3078316462322c3078316462322c3078316462322c,
  0x202020203078316462322c3078316462322c3078316462322c3078316462322c3078316462322c3078316462322c3078316462322c3078316462322c3078316462322c3078316462322c3078316462322c3078316462322c3078316462322c3078316462322c3078316462322c3078316462322c,
  0x202020203078316462322c3078316462322c3078316462322c3078316462322c3078316462322c3078316462322c3078316462322c3078316462322c3078316462322c3078316462322c3078316462322c3078316462322c3078316462322c3078316462322c3078316462322c3078316462322c,
  0x202020203078316462322c3078316462322c3078316462322c3078316462322c3078316462322c3078316462322c3078313134322c3078316233332c3078316465362c3078316465362c3078316465362c3078316465362c3078316465362c3078316465362c3078316465362c3078313134612c,
  0x202020203078313135322c3078313231302c3078313231372c3078316466652c3078316466652c3078316466652c3078316466652c3078316466652c3078316466652c3078316466652c3078316466652c3078316466652c3078316466652c3078316466652c3078313136652c30783530382c,
  0x2020202030783530382c30783530382c30783530382c30783530382c30783530382c30783530382c30783530382c30783530382c30783530382c30783530382c30783530382c30783530382c30783530382c30783530382c30783530382c30783530382c,
  0x2020202030783530382c30783530382c30783530382c30783530382c30783530382c30783530382c30783530382c30783530382c30783530382c30783530382c30783530382c30783530382c30783530382c30783530382c30783530382c30783530382c,
  0x2020202030783530382c30783530382c30783530382c30783530382c30783530382c30783530382c30783530382c3078313763632c3078313763632c3078313763632c3078313763632c3078313763632c3078313763632c3078313763632c3078313763632c3078313763632c,
  0x202020203078313763632c3078313763632c3078313763632c3078313763632c3078313763632c3078313763632c3078313763632c3078313763632c3078313763632c3078313763632c3078313763632c3078313763632c3078313763632c3078313763632c3078313763632c3078313763632c,
  0x202020203078313763632c3078313763632c3078313763632c3078313763632c3078313763632c3078313763632c3078313763632c3078313763632c3078313763632c3078313763632c3078313763632c3078313763632c3078313763632c3078313763632c3078313763632c3078313763632c,
  0x202020203078313763632c3078313763632c3078313763632c3078313763632c3078313763632c3078313763632c3078313763632c3078313763632c3078313763632c3078313763632c3078313763632c3078313763632c3078313763632c3078313264302c3078313239392c3078316230312c,
  0x202020203078316230312c3078316230312c3078316230312c3078316230312c3078316230312c3078316230312c3078316230312c3078316466362c3078316466362c3078316466362c3078316466362c3078316466362c3078316466362c3078316466362c3078316466362c3078316466362c,
  0x202020203078316466362c3078316466362c3078316466362c3078316466362c3078316466362c3078316466362c3078316466362c3078316466362c3078316466362c3078316466362c3078316466362c3078316466362c3078316466362c3078316466362c3078316466362c3078316466362c,
  0x202020203078316466362c3078316466362c3078316466362c3078316466362c3078316466362c3078316466362c3078313261312c3078313239392c3078313239392c3078313239392c3078313239392c3078313239392c3078313239392c3078313239392c3078313239392c3078313239392c,
  0x202020203078313239392c3078313239392c3078313239392c3078313239392c3078313239392c3078313239392c3078313239392c3078313239392c3078313239392c3078313239392c3078313239392c3078313239392c3078313239392c3078313239392c3078313239392c3078313239392c,
  0x202020203078313239392c3078313239392c3078313239392c3078313239392c3078313239392c3078313239392c3078313239392c3078313239392c3078313239392c3078313239392c3078313239392c3078313239392c3078313239392c3078313239392c3078313239392c3078313239392c,
  0x202020203078313239392c3078313239392c3078313239392c3078313239392c3078313239392c3078313239392c3078313239392c3078313239392c3078313239392c3078313239392c3078313239392c3078313239392c3078313239392c3078313239392c3078313239392c3078313239392c,
  0x202020203078313239392c3078313239392c3078313239392c3078313239392c3078313239392c3078313239392c3078313239392c3078313764342c3078313764342c3078313764342c3078313764342c3078313764342c3078313764342c3078313764342c3078313764342c3078313764342c]

/-- UnicodeData/CharPropsData.py:1666-1921 the lines. -/
def charText9 : List Nat :=
 [0x202020203078313764342c3078313764342c3078313764342c3078313764342c3078313764342c3078313764342c3078313764342c3078313264382c3078313239392c3078313239392c3078313239392c3078313239392c3078313239392c3078313239392c3078313239392c3078313239392c,
  0x202020203078313239392c3078313239392c3078313239392c3078313239392c3078313239392c3078313239392c3078313239392c3078313239392c3078313239392c3078313239392c3078313239392c3078313239392c3078313239392c3078313239392c3078313239392c3078313239392c,
  0x202020203078313239392c3078313239392c3078313239392c3078313239392c3078313239392c3078313239392c3078313239392c3078313239392c3078313239392c3078313239392c3078313239392c3078313239392c3078313239392c3078313239392c3078313239392c3078313239392c,
  0x202020203078313239392c3078313239392c3078313239392c3078313239392c3078313239392c3078313239392c3078313261352c3078316536652c3078316536652c3078316536652c3078316536652c3078316536652c3078316536652c3078316536652c3078316536652c3078316536652c,
  0x202020203078316536652c3078316536652c3078316536652c3078316536652c3078316536652c3078316536652c3078316536652c3078316536652c3078316536652c3078316536652c3078316536652c3078316536652c3078316536652c3078316536652c3078316536652c3078316536652c,
  0x202020203078316536652c3078313261642c3078313239392c3078313239392c3078313239392c3078313239392c3078313239392c3078313239392c3078313239392c3078313239392c3078313239392c3078313239392c3078313239392c3078313239392c3078313239392c3078313239392c,
  0x202020203078313239392c3078313239392c3078313239392c3078313239392c3078313239392c3078313239392c3078313239392c3078313239392c3078313239392c3078313239392c3078313239392c3078313239392c3078313239392c3078313239392c3078313239392c3078313239392c,
  0x202020203078313239392c3078313239392c3078313239392c3078313239392c3078313239392c3078313239392c3078313239392c3078313239392c3078313239392c3078313239392c3078313239392c3078313239392c3078313239392c3078313239392c3078313239392c3078313239392c,
  0x202020203078313239392c3078313239392c3078313239392c3078313239392c3078313239392c3078313239392c3078313239392c3078313239392c3078313239392c3078313239392c3078313239392c3078313239392c3078313239392c3078313239392c3078313239392c3078313239392c,
  0x202020203078313239392c3078313261352c3078316230312c3078316230312c3078316230312c3078316230312c3078316230312c3078316230312c3078316230312c3078316230312c3078316230312c3078316230312c3078316230312c3078316230312c3078316230312c3078316230312c,
  0x202020203078316230312c3078316230312c3078316230312c3078316230312c3078316230312c3078316230312c3078316230312c3078316230312c3078316230312c3078316230312c3078316230312c3078316230312c3078316230312c3078316230312c3078316230312c3078316230312c,
  0x202020203078316230312c3078316230312c3078316230312c3078316230312c3078316230312c3078316230312c3078316230312c3078316230312c3078316230312c3078316230312c3078316230312c3078316230312c3078316230312c3078316230312c3078316230312c3078316230312c,
  0x202020203078316230312c3078316230312c3078316230312c3078316230312c3078316230312c3078316230312c3078316230312c3078316230312c3078316230312c3078316230312c3078316230312c3078313265302c3078316265612c3078316265612c3078316265612c3078316265612c,
  0x202020203078316265612c3078316265612c3078313265382c3078316436612c3078316436612c3078316436612c3078316436612c3078316436612c3078316436612c3078316436612c3078316436612c3078316436612c3078316436612c3078316436612c3078316436612c3078316436612c,
  0x202020203078316436612c3078316436612c3078316436612c3078316436612c3078316436612c3078316436612c3078316436612c3078316436612c3078316436612c3078316436612c3078316436612c3078316436612c3078316436612c3078316436612c3078316436612c3078316436612c,
  0x202020203078316436612c3078316436612c3078316436612c3078316436612c3078316436612c3078316436612c3078316436612c3078316436612c3078316436612c3078316436612c3078316436612c3078316436612c3078316436612c3078316436612c3078316436612c3078316436612c,
  0x202020203078316436612c3078316436612c3078316436612c3078316436612c3078316436612c3078316436612c3078316436612c3078316436612c3078316436612c3078316436612c3078316436612c3078316436612c3078316436612c3078316436612c3078316436612c3078316436612c,
  0x202020203078316436612c3078316436612c3078313266302c3078316466362c3078316466362c3078316466362c3078316466362c3078316466362c3078316466362c3078316466362c3078316466362c3078316466362c3078316466362c3078313636342c3078313636342c3078313636342c,
  0x202020203078313636342c3078313636342c3078313636342c3078313636342c3078313636342c3078313636342c3078313636342c3078313636342c3078313636342c3078313636342c3078313636342c3078313636342c3078313636342c3078313636342c3078313636342c3078313636342c,
  0x202020203078313636342c3078313636342c3078313636342c3078313636342c3078313636342c3078313636342c3078313636342c3078313636342c3078313636342c3078313636342c3078313636342c3078313636342c3078313636342c3078313636342c3078313636342c3078313636342c,
  0x202020203078313636342c3078313636342c3078313636342c3078313636342c3078313636342c3078313636342c3078313636342c3078313636342c3078313636342c3078313636342c3078313636342c3078313636342c3078313636342c3078313636342c3078313636342c3078313636342c,
  0x202020203078313636342c3078313636342c3078313636342c3078313636342c3078313636342c3078313636342c3078313636342c3078313636342c3078313636342c3078313636342c3078313636342c3078313636342c3078313635342c3078313636632c3078313636632c3078313636632c,
  0x202020203078313636632c3078313636632c3078313636632c3078313636632c3078313636632c3078313636632c3078313636632c3078313636632c3078313636632c3078313636632c3078313636632c3078313636632c3078313636632c3078313636632c3078313636632c3078313636632c,
  0x202020203078313636632c3078313636632c3078313636632c3078313636632c3078313636632c3078313636632c3078313636632c3078313636632c3078313636632c3078313636632c3078313636632c3078313636632c3078313636632c3078313636632c3078313636632c3078313636632c,
  0x202020203078313636632c3078313636632c3078313636632c3078313636632c3078313636632c3078313636632c3078313636632c3078313636632c3078313636632c3078313636632c3078313636632c3078313636632c3078313636632c3078313636632c3078313636632c3078313636632c,
  0x202020203078313636632c3078313636632c3078313636632c3078313636632c3078313636632c3078313636632c3078313636632c3078313636632c3078313636632c3078313636632c3078313636632c3078313636632c3078313635632c3078313636342c3078313636342c3078313636342c,
  0x202020203078313636342c3078313636342c3078313636342c3078313636342c3078313636342c3078313636342c3078313636342c3078313636342c3078313636342c3078313636342c3078313636342c3078313636342c3078313636342c3078313636342c3078313636342c3078313636342c,
  0x202020203078313636342c3078313636342c3078313636342c3078313636342c3078313636342c3078313636342c3078313636342c3078313636342c3078313636342c3078313636342c3078313636342c3078313636342c3078313636342c3078313636342c3078313636342c3078313636342c,
  0x202020203078313636342c3078313636342c3078313636342c3078313636342c3078313636342c3078313636342c3078313636342c3078313636342c3078313636342c3078313636342c3078313636342c3078313636342c3078313636342c3078313636342c3078313636342c3078313636342c,
  0x202020203078313636342c3078313636342c3078313636342c3078313636342c3078313636342c3078313636342c3078313636342c3078313636342c3078313636342c3078313636342c3078313636342c3078313636342c3078313636342c3078313636632c3078313636632c3078313636632c,
  0x202020203078313636632c3078313636632c3078313636632c3078313636632c3078313636632c3078313636632c3078313636632c3078313636632c3078313636632c3078313636632c3078313636632c3078313636632c3078313636632c3078313636632c3078313636632c3078313636632c,
  0x202020203078313636632c3078313636632c3078313636632c3078313636632c3078313636632c3078313636632c3078313636632c3078313636632c3078313636632c3078313636632c3078313636632c3078313636632c3078313636632c3078313636632c3078313636632c3078313636632c,
  0x202020203078313636632c3078313636632c3078313636632c3078313636632c3078313636632c3078313636632c3078313636632c3078313636632c3078313636632c3078313636632c3078313636632c3078313636632c3078313636632c3078313636632c3078313636632c3078313636632c,
  0x202020203078313636632c3078313636632c3078313636632c3078313636632c3078313636632c3078313636632c3078313636632c3078313636632c3078313636632c3078313636632c3078313636632c3078313636632c3078313636632c3078313763632c3078313763632c3078313763632c,
  0x202020203078313763632c3078313763632c3078313763632c3078313763632c3078313763632c3078313763632c3078313763632c3078313763632c3078313763632c3078313763632c3078313763632c3078313763632c3078313763632c3078313763632c3078313763632c3078313763632c,
  0x202020203078313763632c3078313763632c3078313763632c3078313763632c3078313763632c3078313763632c3078313763632c3078313763632c3078313763632c3078313763632c3078313763632c3078313763632c3078313763632c3078313763632c3078313763632c3078313763632c,
  0x202020203078313763632c3078313763632c3078313763632c3078313763632c3078313763632c3078313763632c3078313763632c3078313763632c3078313763632c3078313763632c3078313763632c3078313763632c3078313763632c3078313763632c3078313763632c3078313763632c,
  0x202020203078313763632c3078313763632c3078313763632c3078313763632c3078313763632c3078313763632c3078313763632c3078313763632c3078313763632c3078313763632c3078313763632c3078313763632c3078313763632c3078316230312c3078316230312c3078316230312c,
  0x202020203078316230312c3078316230312c3078316230312c3078316230312c3078316230312c3078316230312c3078316230312c3078316230312c3078316230312c3078316230312c3078316230312c3078316230312c3078316230312c3078316230312c3078316230312c3078316230312c,
  0x202020203078316230312c3078316230312c3078316230312c3078316230312c3078316230312c3078316230312c3078316230312c3078316230312c3078316230312c3078316230312c3078316230312c3078316230312c3078316230312c3078316230312c3078316230312c3078316230312c,
  0x202020203078316230312c3078316230312c3078316230312c3078316230312c3078316230312c3078316230312c3078316230312c3078316230312c3078316230312c3078316230312c3078316230312c3078316230312c3078316230312c3078316230312c3078316230312c3078316230312c,
  0x202020203078316230312c3078316230312c3078316230312c3078316230312c3078316230312c3078316230312c3078316230312c3078316230312c3078316230312c3078316230312c3078316230312c3078316230312c3078316230312c3078316436612c3078316436612c3078316436612c,
  0x202020203078316436612c3078316436612c3078316436612c3078316436612c3078316436612c3078316436612c3078316436612c3078316436612c3078316436612c3078316436612c3078316436612c3078316436612c3078316436612c3078316436612c3078316436612c3078316436612c,
  0x202020203078316436612c3078316436612c3078316436612c3078316436612c3078316436612c3078316436612c3078316436612c3078316436612c3078316436612c3078316436612c3078316436612c3078316436612c3078316436612c3078316436612c3078316436612c3078316436612c,
  0x202020203078316436612c3078316436612c3078316436612c3078316436612c3078316436612c3078316436612c3078316436612c3078316436612c3078316436612c3078316436612c3078316436612c3078316436612c3078316436612c3078316436612c3078316436612c3078316436612c,
  0x202020203078316436612c3078316436612c3078316436612c3078316436612c3078316436612c3078316436612c3078316436612c3078316436612c3078316436612c3078316436612c3078316436612c3078316436612c3078316436612c3078316462322c3078316462322c3078316462322c,
  0x202020203078316462322c3078316462322c3078316462322c3078316462322c3078316462322c3078316462322c3078316462322c3078316462322c3078316462322c3078316462322c3078316462322c3078316462322c3078316462322c3078316462322c3078316462322c3078316462322c,
  0x202020203078316462322c3078316462322c3078316462322c3078316462322c3078316462322c3078316462322c3078316462322c3078316462322c3078316462322c3078316462322c3078316462322c3078316462322c3078316462322c3078316462322c3078316462322c3078316462322c,
  0x202020203078316462322c3078316462322c3078316462322c3078316462322c3078316462322c3078316462322c3078316462322c3078316462322c3078316462322c3078316462322c3078316462322c3078316462322c3078316462322c3078316462322c3078316462322c3078316462322c,
  0x202020203078316462322c3078316462322c3078316462322c3078316462322c3078316462322c3078316462322c3078316462322c3078316462322c3078316462322c3078316462322c3078316462322c3078316462322c3078316462322c3078316466362c3078316466362c3078316466362c,
  0x202020203078316466362c3078316466362c3078316466362c3078316466362c3078316466362c3078316466362c3078316466362c3078316466362c3078316466362c3078316466362c3078316466362c3078316466362c3078316466362c3078316466362c3078316466362c3078316466362c,
  0x202020203078316466362c3078316466362c3078316466362c3078316466362c3078316466362c3078316466362c3078316466362c3078316466362c3078316466362c3078316466362c3078316466362c3078316466362c3078316466362c3078316466362c3078316466362c3078316466362c,
  0x202020203078316466362c3078316466362c3078316466362c3078316466362c3078316466362c3078316466362c3078316466362c3078316466362c3078316466362c3078316466362c3078316466362c3078316466362c3078316466362c3078316466362c3078316466362c3078316466362c,
  0x202020203078316466362c3078316466362c3078316466362c3078316466362c3078316466362c3078316466362c3078316466362c3078316466362c3078316466362c3078316466362c3078316466362c3078316466362c3078316466362c3078316536652c3078316536652c3078316536652c,
  0x202020203078316536652c3078316536652c3078316536652c3078316536652c3078316536652c3078316536652c3078316536652c3078316536652c3078316536652c3078316536652c3078316536652c3078316536652c3078316536652c3078316536652c3078316536652c3078316536652c,
  0x202020203078316536652c3078316536652c3078316536652c3078316536652c3078316536652c3078316536652c3078316536652c3078316536652c3078316536652c3078316536652c3078316536652c3078316536652c3078316536652c3078316536652c3078316536652c3078316536652c,
  0x202020203078316536652c3078316536652c3078316536652c3078316536652c3078316536652c3078316536652c3078316536652c3078316536652c3078316536652c3078316536652c3078316536652c3078316536652c3078316536652c3078316536652c3078316536652c3078316536652c,
  0x202020203078316536652c3078316536652c3078316536652c3078316536652c3078316536652c3078316536652c3078316536652c3078316536652c3078316536652c3078316536652c3078316536652c3078316536652c3078316536652c30783465372c30783465372c30783465372c,
  0x2020202030783263372c30783263372c30783263372c30783263372c30783263372c30783263372c30783263372c30783263372c30783263372c30783263612c30783264332c30783263642c30783263642c30783264302c30783263372c30783263372c,
  0x2020202030783263372c30783263372c30783263372c30783263372c30783263372c30783263372c30783263372c30783263372c30783263372c30783263372c30783263372c30783263372c30783263372c30783263372c30783263372c30783263372c,
  0x2020202030783766622c30783766352c30783764612c30783764312c30783763382c30783763352c30783762632c30783764372c30783763322c30783763652c30783764312c30783765632c30783765332c30783764342c30783766382c30783763622c,
  0x2020202030783762392c30783762392c30783762392c30783762392c30783762392c30783762392c30783762392c30783762392c30783762392c30783762392c30783765302c30783764642c30783765362c30783765362c30783765362c30783766352c,
  0x2020202030783762632c30783830372c30783830372c30783830372c30783830372c30783830372c30783830372c30783830312c30783830312c30783830312c30783830312c30783830312c30783830312c30783830312c30783830312c30783830312c,
  0x2020202030783830312c30783830312c30783830312c30783830312c30783830312c30783830312c30783830312c30783830312c30783830312c30783830312c30783830312c30783763322c30783763382c30783763652c30783766322c30783762362c,
  0x2020202030783765662c30783830342c30783830342c30783830342c30783830342c30783830342c30783830342c30783766652c30783766652c30783766652c30783766652c30783766652c30783766652c30783766652c30783766652c30783766652c,
  0x2020202030783766652c30783766652c30783766652c30783766652c30783766652c30783766652c30783766652c30783766652c30783766652c30783766652c30783766652c30783763322c30783765392c30783762662c30783765362c30783263372c,
  0x20202020302c302c302c302c302c302c302c302c302c302c302c302c302c302c302c302c,
  0x20202020302c302c302c302c302c302c302c302c302c302c302c302c302c302c302c302c,
  0x20202020302c302c302c302c302c302c302c302c302c302c302c302c302c302c302c302c,
  0x20202020302c302c302c302c302c302c302c302c302c302c302c302c302c302c302c302c,
  0x2020202030783264362c30783264362c30783264362c30783264362c30783264362c30783265352c30783264362c30783264362c30783264362c30783264362c30783264362c30783264362c30783264362c30783264362c30783264362c30783264362c,
  0x2020202030783264362c30783264362c30783264362c30783264362c30783264362c30783264362c30783264362c30783264362c30783264362c30783264362c30783264362c30783264362c30783264362c30783264362c30783264362c30783264362c,
  0x2020202030783264392c30783635312c30783831302c30783831332c30783635372c30783831332c30783830642c30783634652c30783634352c30783264662c30783636332c30783265322c30783831362c30783633632c30783635612c30783830612c,
  0x2020202030783635342c30783636302c30783634322c30783634322c30783634382c30783264632c30783634652c30783634622c30783634352c30783634322c30783636332c30783265322c30783633662c30783633662c30783633662c30783635312c,
  0x2020202030783265622c30783265622c30783265622c30783265622c30783265622c30783265622c30783636632c30783265622c30783265622c30783265622c30783265622c30783265622c30783265622c30783265622c30783265622c30783265622c,
  0x2020202030783636632c30783265622c30783265622c30783265622c30783265622c30783265622c30783265622c30783635642c30783636632c30783265622c30783265622c30783265622c30783265622c30783265622c30783636632c30783636362c,
  0x2020202030783636392c30783636392c30783265382c30783265382c30783265382c30783265382c30783636362c30783265382c30783636392c30783636392c30783636392c30783265382c30783636392c30783636392c30783265382c30783265382c,
  0x2020202030783636362c30783265382c30783636392c30783636392c30783265382c30783265382c30783265382c30783635642c30783636362c30783636392c30783636392c30783265382c30783636392c30783265382c30783636362c30783265382c,
  0x2020202030783266372c30783637322c30783266372c30783265652c30783266372c30783265652c30783266372c30783265652c30783266372c30783265652c30783266372c30783265652c30783266372c30783265652c30783266372c30783265652c,
  0x2020202030783266342c30783636662c30783266372c30783637322c30783266372c30783265652c30783266372c30783265652c30783266372c30783265652c30783266372c30783637322c30783266372c30783265652c30783266372c30783265652c,
  0x2020202030783266372c30783265652c30783266372c30783265652c30783266372c30783265652c30783637382c30783636662c30783266372c30783265652c30783266372c30783637322c30783266372c30783265652c30783266372c30783265652c,
  0x2020202030783266372c30783636662c30783637622c30783637352c30783266372c30783265652c30783266372c30783265652c30783636662c30783266372c30783265652c30783266372c30783265652c30783266372c30783265652c30783637622c,
  0x2020202030783637352c30783637382c30783636662c30783266372c30783637322c30783266372c30783265652c30783266372c30783637322c30783637652c30783637382c30783636662c30783266372c30783637322c30783266372c30783265652c,
  0x2020202030783266372c30783265652c30783637382c30783636662c30783266372c30783265652c30783266372c30783265652c30783266372c30783265652c30783266372c30783265652c30783266372c30783265652c30783266372c30783265652c,
  0x2020202030783266372c30783265652c30783266372c30783265652c30783266372c30783265652c30783637382c30783636662c30783266372c30783265652c30783266372c30783637322c30783266372c30783265652c30783266372c30783265652c,
  0x2020202030783266372c30783265652c30783266372c30783265652c30783266372c30783265652c30783266372c30783265652c30783266372c30783266372c30783265652c30783266372c30783265652c30783266372c30783265652c30783266312c,
  0x2020202030783266612c30783330362c30783330362c30783266612c30783330362c30783266612c30783330362c30783330362c30783266612c30783330362c30783330362c30783330362c30783266612c30783266612c30783330362c30783330362c,
  0x2020202030783330362c30783330362c30783266612c30783330362c30783330362c30783266612c30783330362c30783330362c30783330362c30783266612c30783266612c30783266612c30783330362c30783330362c30783266612c30783330362c,
  0x2020202030783330392c30783266642c30783330362c30783266612c30783330362c30783266612c30783330362c30783330362c30783266612c30783330362c30783266612c30783266612c30783330362c30783266612c30783330362c30783330392c,
  0x2020202030783266642c30783330362c30783330362c30783330362c30783266612c30783330362c30783266612c30783330362c30783330362c30783266612c30783266612c30783330332c30783330362c30783266612c30783266612c30783266612c,
  0x2020202030783330332c30783330332c30783330332c30783330332c30783330632c30783330632c30783330302c30783330632c30783330632c30783330302c30783330632c30783330632c30783330302c30783330392c30783638312c30783330392c,
  0x2020202030783638312c30783330392c30783638312c30783330392c30783638312c30783330392c30783638312c30783330392c30783638312c30783330392c30783638312c30783330392c30783638312c30783266612c30783330392c30783266642c,
  0x2020202030783330392c30783266642c30783330392c30783266642c30783330362c30783266612c30783330392c30783266642c30783330392c30783266642c30783330392c30783266642c30783330392c30783266642c30783330392c30783266642c,
  0x2020202030783266642c30783330632c30783330632c30783330302c30783330392c30783266642c30783965612c30783965612c30783965642c30783965372c30783330392c30783266642c30783330392c30783266642c30783330392c30783266642c,
  0x2020202030783330392c30783266642c30783330392c30783266642c30783330392c30783266642c30783330392c30783266642c30783330392c30783266642c30783330392c30783266642c30783330392c30783266642c30783330392c30783266642c,
  0x2020202030783330392c30783266642c30783330392c30783266642c30783965642c30783965372c30783965642c30783965372c30783965612c30783965342c30783965642c30783965372c30786261662c30786362372c30783965612c30783965342c,
  0x2020202030783965612c30783965342c30783965642c30783965372c30783965642c30783965372c30783965642c30783965372c30783965642c30783965372c30783965642c30783965372c30783965642c30783965372c30783965642c30783965372c,
  0x2020202030786362372c30786362372c30786362372c30786462362c30786462362c30786462362c30786462392c30786462392c30786462362c30786462392c30786462392c30786462362c30786462362c30786462392c30786566612c30786566642c,
  0x2020202030786566642c30786566642c30786566642c30786566612c30786566642c30786566612c30786566642c30786566612c30786566642c30786566612c30786566642c30786566612c30783330662c30783638342c30783330662c30783330662c,
  0x2020202030783330662c30783330662c30783330662c30783330662c30783330662c30783330662c30783330662c30783330662c30783330662c30783330662c30783330662c30783330662c30783330662c30783638342c30783330662c30783330662c,
  0x2020202030783330662c30783330662c30783330662c30783330662c30783330662c30783330662c30783330662c30783330662c30783330662c30783330662c30783330662c30783330662c30783330662c30783330662c30783330662c30783330662c,
  0x2020202030783330662c30783330662c30783330662c30783330662c30783330662c30783330662c30783330662c30783330662c30783330662c30783330662c30783330662c30783330662c30783331322c30783330662c30783330662c30783330662c,
  0x2020202030783330662c30783330662c30783330662c30783330662c30783330662c30783330662c30783330662c30783330662c30783330662c30783330662c30783330662c30783330662c30783330662c30783330662c30783330662c30783330662c,
  0x2020202030783330662c30783966302c30783966302c30783966302c30783966302c30783966302c30786362612c30786362612c30783332372c30783332372c30783332372c30783332372c30783332372c30783332372c30783332372c30783332372c,
  0x2020202030783332372c30783331652c30783331652c30783331652c30783331652c30783331652c30783331652c30783331652c30783331622c30783331622c30783331382c30783331382c30783638612c30783331382c30783331652c30783638642c,
  0x2020202030783332312c30783638642c30783638642c30783638642c30783332312c30783638642c30783331652c30783331652c30783639302c30783332342c30783331382c30783331382c30783331382c30783331382c30783331382c30783331382c,
  0x2020202030783638372c30783638372c30783638372c30783638372c30783331352c30783638372c30783331382c30786232352c30783332372c30783332372c30783332372c30783332372c30783332372c30783331382c30783331382c30783331382c,
  0x2020202030783331382c30783331382c30783966392c30783966392c30783966362c30783966332c30783966362c30786362642c30786362642c30786362642c30786362642c30786362642c30786362642c30786362642c30786362642c30786362642c,
  0x2020202030786362642c30786362642c30786362642c30786362642c30786362642c30786362642c30786362642c30786362642c30783639332c30783639332c30783639332c30783639332c30783639332c30783639332c30783639332c30783639332c,
  0x2020202030783639332c30783639332c30783639332c30783639332c30783639332c30783639332c30783639332c30783639332c30783639332c30783639332c30783639332c30783639332c30783639332c30783639332c30783639332c30783639332c,
  0x2020202030783639332c30783639332c30783639332c30783639332c30783639332c30783639332c30783639332c30783639332c30783639332c30783639332c30783639332c30783639332c30783639332c30783639332c30783639332c30783639332c,
  0x2020202030783639332c30783639332c30783639332c30783639332c30783639332c30783639332c30783639332c30783639332c30783639332c30783639332c30783639332c30783639332c30783639332c30783639332c30783639332c30783639332c,
  0x2020202030783639332c30783639332c30783639332c30783639332c30783639332c30783639332c30783639332c30783639332c30783639362c30783639362c30783934622c30783639362c30783639362c30783934652c30786232382c30786232382c,
  0x2020202030786232382c30786232382c30786232382c30786232382c30786232382c30786232382c30786232382c30786336632c30786438332c30786438332c30786438332c30786438332c30786438332c30786438332c30786438332c30786438332c,
  0x2020202030786562652c30786562652c30786562652c30786562652c30786563312c30786438362c30786438362c30786438362c30783639392c30783639392c30786232622c30786362342c30786362342c30786362342c30786362342c30786362342c,
  0x2020202030786362342c30786362342c30786362342c30786362342c30786362342c30786362342c30786362342c30786362342c30786661382c30786661352c30786661382c30786661352c30783333332c30783333632c30786661382c30786661352c,
  0x20202020392c392c30783334322c30786630302c30786630302c30786630302c30783332612c3078313466642c392c392c392c392c30783333662c30783332642c30783335312c30783333302c,
  0x2020202030783335312c30783335312c30783335312c392c30783335312c392c30783335312c30783335312c30783334382c30783639662c30783639662c30783639662c30783639662c30783639662c30783639662c30783639662c,
  0x2020202030783639662c30783639662c30783639662c30783639662c30783639662c30783639662c30783639662c30783639662c30783639662c30783639662c392c30783639662c30783639662c30783639662c30783639662c30783639662c,
  0x2020202030783639662c30783639662c30783335312c30783335312c30783334382c30783334382c30783334382c30783334382c30783334382c30783639632c30783639632c30783639632c30783639632c30783639632c30783639632c30783639632c,
  0x2020202030783639632c30783639632c30783639632c30783639632c30783639632c30783639632c30783639632c30783639632c30783639632c30783639632c30783334352c30783639632c30783639632c30783639632c30783639632c30783639632c,
  0x2020202030783639632c30783639632c30783334382c30783334382c30783334382c30783334382c30783334382c30786661382c30783335342c30783335342c30783335372c30783335312c30783335312c30783335342c30783334622c30783966632c,
  0x2020202030786262382c30786262352c30783334652c30783966632c30783334652c30783966632c30783334652c30783966632c30783334652c30783966632c30783333392c30783333362c30783333392c30783333362c30783333392c30783333362c,
  0x2020202030783333392c30783333362c30783333392c30783333362c30783333392c30783333362c30783333392c30783333362c30783335342c30783335342c30783334622c30783334352c30786236372c30786236342c30786262322c30786363332c,
  0x2020202030786363302c30786363362c30786363332c30786363302c30786462632c30786462662c30786462662c30786462662c30786130622c30783661622c30783336332c30783336362c30783336332c30783336332c30783336332c30783336362c,
  0x2020202030783336332c30783336332c30783336332c30783336332c30783336362c30786130622c30783336362c30783336332c30783661382c30783661382c30783661382c30783661382c30783661382c30783661382c30783661382c30783661382c,
  0x2020202030783661382c30783661622c30783661382c30783661382c30783661382c30783661382c30783661382c30783661382c30783661382c30783661382c30783661382c30783661382c30783661382c30783661382c30783661382c30783661382c,
  0x2020202030783661382c30783661382c30783661382c30783661382c30783661382c30783661382c30783661382c30783661382c30783661322c30783661322c30783661322c30783661322c30783661322c30783661322c30783661322c30783661322c,
  0x2020202030783661322c30783661352c30783661322c30783661322c30783661322c30783661322c30783661322c30783661322c30783661322c30783661322c30783661322c30783661322c30783661322c30783661322c30783661322c30783661322c,
  0x2020202030783661322c30783661322c30783661322c30783661322c30786130352c30783661352c30783335642c30783336302c30783335642c30783335642c30783335642c30783336302c30783335642c30783335642c30783335642c30783335642c,
  0x2020202030783336302c30786130352c30783336302c30783335642c30783336332c30783335642c30783336332c30783335642c30783336332c30783335642c30783336332c30783335642c30783336332c30783335642c30783336332c30783335642c,
  0x2020202030783336332c30783335642c30783336332c30783335642c30783336332c30783335642c30783336332c30783335642c30783336332c30783335642c30783336362c30783336302c30783336332c30783335642c30783336332c30783335642c,
  0x2020202030783336332c30783335642c30783336332c30783335642c30783336332c30783335642c30783335612c30783935372c30783935612c30783933632c30783933632c3078313134662c30783966662c30783966662c30786262652c30786262622c,
  0x2020202030786130382c30786130322c30786130382c30786130322c30783336332c30783335642c30783336332c30783335642c30783336332c30783335642c30783336332c30783335642c30783336332c30783335642c30783336332c30783335642c,
  0x2020202030783336332c30783335642c30783336332c30783335642c30783336332c30783335642c30783336332c30783335642c30783336332c30783335642c30783336332c30783335642c30783336332c30783335642c30783336332c30783335642c,
  0x2020202030783336332c30783335642c30783336332c30783335642c30783336332c30783335642c30783336332c30783335642c30783336332c30783335642c30783336332c30783335642c30783336332c30783335642c30783336332c30783335642c,
  0x2020202030783336332c30783335642c30783336332c30783335642c30783336332c30783336362c30783336302c30783336332c30783335642c30786262652c30786262622c30783336332c30783335642c30786262652c30786262622c30783336332c,
  0x2020202030783335642c30786262652c30786262622c30786630332c30783336362c30783336302c30783336362c30783336302c30783336332c30783335642c30783336362c30783336302c30783336332c30783335642c30783336362c30783336302c,
  0x2020202030783336362c30783336302c30783336362c30783336302c30783336332c30783335642c30783336362c30783336302c30783336362c30783336302c30783336362c30783336302c30783336332c30783335642c30783336362c30783336302c,
  0x2020202030786130622c30786130352c30783336362c30783336302c30783336362c30783336302c30783336362c30783336302c30783336362c30783336302c30786463352c30786463322c30783336362c30783336302c30786630362c30786630332c,
  0x2020202030786630362c30786630332c30786630362c30786630332c30786332642c30786332612c30786332642c30786332612c30786332642c30786332612c30786332642c30786332612c30786332642c30786332612c30786332642c30786332612c,
  0x2020202030786332642c30786332612c30786332642c30786332612c30786633332c30786633302c30786633332c30786633302c3078313032332c3078313032302c3078313032332c3078313032302c3078313032332c3078313032302c3078313032332c3078313032302c,
  0x202020203078313032332c3078313032302c3078313032332c3078313032302c3078313032332c3078313032302c3078313032332c3078313032302c3078313138382c3078313138352c3078313337312c3078313336652c3078313533362c3078313533332c3078313533362c3078313533332c,
  0x202020203078313533362c3078313533332c3078313533362c3078313533332c3078632c30783337382c30783337382c30783337382c30783337382c30783337382c30783337382c30783337382c30783337382c30783337382c30783337382c30783337382c,
  0x2020202030783337382c30783337382c30783337382c30783337382c30783337382c30783337382c30783337382c30783337382c30783337382c30783337382c30783337382c30783337382c30783337382c30783337382c30783337382c3078632c,
  0x202020203078632c30783337622c30783336392c30783336392c30783336392c30783336662c30783336392c30783336632c3078313934312c30783337322c30783337322c30783337322c30783337322c30783337322c30783337322c30783337322c,
  0x2020202030783337322c30783337322c30783337322c30783337322c30783337322c30783337322c30783337322c30783337322c30783337322c30783337322c30783337322c30783337322c30783337322c30783337322c30783337322c30783337322c,
  0x2020202030783337322c30783337322c30783337322c30783337322c30783337322c30783337322c30783337322c30783337322c30783337322c30783337322c30783337322c30783337352c3078313934312c30783337652c30786130652c3078632c,
  0x202020203078632c3078313530302c3078313530302c3078313431632c3078662c30783937652c30783937652c30783937652c30783937652c30783937652c30783937652c30783937652c30783937652c30783937652c30783937652c30783937652c,
  0x2020202030783937652c30783937652c30783937652c30783937652c30783937652c30783937652c30786463382c30783937652c30783937652c30783937652c30783937652c30783937652c30783937652c30783937652c30783937652c30783937652c,
  0x2020202030783937652c30783937652c30783937652c30783937652c30783338312c30783338312c30783338312c30783338312c30783338312c30783338312c30783338312c30783338312c30783338312c30783338312c30786630392c30783338312c,
  0x2020202030783338312c30783338312c30783338642c30783338312c30783338342c30783338312c30783338312c30783339302c30783938312c30786463622c30786463652c30786463622c3078662c3078662c3078662c3078662c,
  0x202020203078662c3078662c3078662c3078662c30783339332c30783339332c30783339332c30783339332c30783339332c30783339332c30783339332c30783339332c30783339332c30783339332c30783339332c30783339332c,
  0x2020202030783339332c30783339332c30783339332c30783339332c30783339332c30783339332c30783339332c30783339332c30783339332c30783339332c30783339332c30783339332c30783339332c30783339332c30783339332c3078662c,
  0x202020203078662c3078662c3078662c3078313934342c30783339332c30783339332c30783339332c30783338612c30783338372c3078662c3078662c3078662c3078662c3078662c3078662c3078662c,
  0x202020203078662c3078662c3078662c3078662c30786364622c30786364622c30786364622c30786364622c3078313431662c3078313530332c30786662312c30786662312c30786662312c30786661652c30786661652c30786464342c,
  0x2020202030783863372c30786364352c30786364322c30786364322c30786363392c30786363392c30786363392c30786363392c30786363392c30786363392c30786661622c30786661622c30786661622c30786661622c30786661622c30783863342c,
  0x202020203078313466612c307831322c30786464372c30783863612c3078313333382c30783361652c30783362312c30783362312c30783362312c30783362312c30783362312c30783361652c30783361652c30783361652c30783361652c30783361652c,
  0x2020202030783361652c30783361652c30783361652c30783361652c30783361652c30783361652c30783361652c30783361652c30783361652c30783361652c30783361652c30783361652c30783361652c30783361652c30783361652c30786662342c,
  0x2020202030786662342c30786662342c30786662342c30786662342c30783863642c30783361652c30783361652c30783361652c30783361652c30783361652c30783361652c30783361652c30783361652c30783361652c30783361652c30783934322c,
  0x2020202030783934322c30783934322c30783934322c30783934322c30783934322c30783934322c30783934322c30786235652c30786235652c30786235652c30786363392c30786363662c30786363632c30786464312c30786464312c30786464312c,
  0x2020202030786464312c30786464312c30786464312c3078313333352c30783936302c30783936302c30783936302c30783936302c30783936302c30783936302c30783936302c30783936302c30783936302c30783936302c30783361382c30783361352c,
  0x2020202030783361322c30783339662c30786263312c30786263312c30783933662c30783361652c30783361652c30783362612c30783361652c30783362342c30783362342c30783362342c30783362342c30783361652c30783361652c30783361652c,
  0x2020202030783361652c30783361652c30783361652c30783361652c30783361652c30783361652c30783361652c30783361652c30783361652c30783361652c30783361652c30783361652c30783361652c30783361652c30783361652c30783361652c,
  0x2020202030783361652c30783361652c30783361652c30783361652c30783361652c30783361652c30783361652c30783361652c30783361652c30783361652c30783361652c30783361652c30783361652c30783361652c30783361652c30783361652c,
  0x2020202030783361652c30783361652c30783361652c30783361652c30783361652c30783361652c30783361652c30783361652c30783361652c30783361652c30783361652c30783361652c30783361652c30783361652c30783361652c30783361652c,
  0x2020202030783361652c30783361652c30783361652c30783361652c30783361652c30783361652c30783361652c30783361652c30786131342c30786131342c30783361652c30783361652c30783361652c30783361652c30783361652c30786131342c,
  0x2020202030783362312c30783361652c30783362312c30783361652c30783361652c30783361652c30783361652c30783361652c30783361652c30783361652c30783361652c30783361652c30783361652c30783361652c30783361652c30786131342c,
  0x2020202030783361652c30783361652c30783361652c30783362312c30783935642c30783361652c30783339392c30783339392c30783339392c30783339392c30783339392c30783339392c30783339392c30783339362c30783339662c30783339632c,
  0x2020202030783339632c30783339392c30783339392c30783339392c30783339392c30783362372c30783362372c30783339392c30783339392c30783339662c30783339632c30783339632c30783339632c30783339392c30786364382c30786364382c,
  0x2020202030783361622c30783361622c30783361622c30783361622c30783361622c30783361622c30783361622c30783361622c30783361622c30783361622c30786131342c30786131342c30786131342c30786131312c30786131312c30786364382c,
  0x2020202030786132392c30786132392c30786132392c30786132332c30786132332c30786132332c30786132332c30786132332c30786132332c30786132332c30786132332c30786132302c30786132332c30786132302c307831352c30786132632c,
  0x2020202030786132362c30786131372c30786132362c30786132362c30786132362c30786132362c30786132362c30786132362c30786132362c30786132362c30786132362c30786132362c30786132362c30786132362c30786132362c30786132362c,
  0x2020202030786132362c30786132362c30786132362c30786132362c30786132362c30786132362c30786132362c30786132362c30786132362c30786132362c30786132362c30786132362c30786132362c30786364652c30786364652c30786364652c,
  0x2020202030786131642c30786131642c30786131642c30786131642c30786131642c30786131642c30786131642c30786131642c30786131642c30786131642c30786131642c30786131642c30786131642c30786131642c30786131642c30786131642c,
  0x2020202030786131612c30786131612c30786131612c30786131612c30786131612c30786131612c30786131612c30786131612c30786131612c30786131612c30786131612c307831352c307831352c30786364652c30786364652c30786364652c,
  0x2020202030786533372c30786533372c30786533372c30786533372c30786533372c30786533372c30786533372c30786533372c30786533372c30786533372c30786533372c30786533372c30786533372c30786533372c30786533372c30786533372c,
  0x2020202030786533372c30786533372c30786533372c30786533372c30786533372c30786533372c30786533372c30786533372c30786533372c30786533372c30786533372c30786533372c30786533372c30786533372c3078313033352c3078313033352c,
  0x202020203078313033352c3078313033352c3078313033352c3078313033352c3078313033352c3078313033352c3078313033352c3078313033352c3078313033352c3078313033352c3078313033352c3078313033352c3078313033352c3078313033352c3078313033352c3078313033352c,
  0x2020202030786133322c30786133322c30786133322c30786133322c30786133322c30786133322c30786133322c30786133322c30786133322c30786133322c30786133322c30786133322c30786133322c30786133322c30786133322c30786133322c,
  0x2020202030786133322c30786133322c30786133322c30786133322c30786133322c30786133322c30786133322c30786133322c30786133322c30786133322c30786133322c30786133322c30786133322c30786133322c30786133322c30786133322c,
  0x2020202030786133322c30786133322c30786133322c30786133322c30786133322c30786133322c30786132662c30786132662c30786132662c30786132662c30786132662c30786132662c30786132662c30786132662c30786132662c30786132662c,
  0x2020202030786132662c30786263342c307831382c307831382c307831382c307831382c307831382c307831382c307831382c307831382c307831382c307831382c307831382c307831382c307831382c307831382c,
  0x2020202030786634622c30786634622c30786634622c30786634622c30786634622c30786634622c30786634622c30786634622c30786634622c30786634622c30786634652c30786634652c30786634652c30786634652c30786634652c30786634652c,
  0x2020202030786634652c30786634652c30786634652c30786634652c30786634652c30786634652c30786634652c30786634652c30786634652c30786634652c30786634652c30786634652c30786634652c30786634652c30786634652c30786634652c,
  0x2020202030786634652c30786634652c30786634652c30786634652c30786634652c30786634652c30786634652c30786634652c30786634652c30786634652c30786634652c30786634322c30786634322c30786634322c30786634322c30786634322c,
  0x2020202030786634322c30786634322c30786634322c30786634322c30786635312c30786635312c30786634352c30786634352c30786634382c30786635372c30786635342c30783130622c30783130622c3078313936382c3078313936622c3078313936622c,
  0x202020203078313866392c3078313866392c3078313866392c3078313866392c3078313866392c3078313866392c3078313866392c3078313866392c3078313866392c3078313866392c3078313866392c30783235322c30783235322c30783235322c30783235322c30783235322c,
  0x20202020302c302c302c302c302c302c302c302c302c302c302c302c302c302c302c302c,
  0x2020202030786233372c30786233372c30786233612c30786233612c30786233372c30786233372c30786233372c30786233372c30786233372c30786233372c30786233372c30786233372c307837322c307837322c307837322c307837322c,
  0x202020203078313562612c3078313562612c3078313562612c3078313562612c30783162632c30783162632c30783162632c30783162632c30783162632c30783162632c30783162632c30783162632c30783162632c30783162632c30783162632c3078313562372c,
  0x20202020302c302c302c302c302c302c302c302c302c302c302c302c302c302c302c302c,
  0x2020202030783165662c30783165662c30783165662c30783165662c30783165662c30783165662c30783165662c3078313637342c3078313637342c3078313637342c3078313637342c3078313637342c3078313637342c3078313637342c3078313637342c3078313637342c,
  0x20202020302c302c302c302c302c302c302c302c302c302c302c302c302c302c302c302c,
  0x2020202030783166622c30783166622c30783166622c30783166622c30783166622c30783166622c30783166622c30783166622c30783166622c3078313661642c3078313661642c3078313661642c3078313661642c3078313661642c3078313661642c3078313661642c,
  0x20202020302c302c302c302c302c302c302c302c302c302c302c302c302c302c302c302c,
  0x202020203078313237622c3078313237622c3078313237622c3078313237622c3078313237622c3078313237622c3078313237622c3078313237622c3078313237622c30783137342c30783137342c30783137342c30783137342c30783137342c30783137342c30783137342c,
  0x20202020302c302c302c302c302c302c302c302c302c302c302c302c302c302c302c302c,
  0x2020202030783237362c30783237362c30783237362c30783237362c30783237362c30783237362c30783237362c30783237362c30783237362c30783237362c30783237362c30783237362c30783237362c30783237362c30783237362c30783237362c,
  0x20202020302c302c302c302c302c302c302c302c302c302c302c302c302c302c302c302c,
  0x202020203078316166372c3078316166372c3078316166372c3078316166372c3078316166372c3078316166372c3078316166372c3078316166372c3078316166372c3078316166372c3078316166372c3078316166372c3078316166372c3078316166372c3078316166372c3078316166372c,
  0x2020202030783164312c30783164312c30783164312c30783164312c30783164312c30783164312c30783164312c30783164312c30783164312c30783164312c30783164312c30783164312c30783164312c30783164312c30783164312c30783164312c,
  0x20202020302c302c302c302c302c302c302c302c302c302c302c302c302c302c302c302c,
  0x202020203078313464362c3078313464362c3078313464362c3078313464362c3078313464362c3078313464362c3078313464362c3078313464362c3078313464362c3078313464362c30783162362c30783162362c30783162362c30783162362c30783162362c30783162362c,
  0x20202020302c302c302c302c302c302c302c302c302c302c302c302c302c302c302c302c,
  0x2020202030783235622c30783235622c30783235622c30783235622c30783235622c30783235622c30783235622c30783235622c30783235622c30783235622c30783235622c30783235622c30783235622c30783235622c30783235622c30783235622c,
  0x20202020302c302c302c302c302c302c302c302c302c302c302c302c302c302c302c302c,
  0x202020203078313865372c3078313865612c3078313865612c30783234662c30783234662c30783234662c30783234662c30783234662c30783234662c30783234662c30783234662c30783234662c30783234662c30783234662c30783234662c30783234662c,
  0x20202020302c302c302c302c302c302c302c302c302c302c302c302c302c302c302c302c,
  0x202020203078313962362c3078313962362c3078313962362c3078313962362c3078313962362c3078313962362c3078313962362c3078313962362c3078313962362c3078313962362c30783236312c30783236312c30783236312c30783236312c30783236312c30783236312c,
  0x20202020302c302c302c302c302c302c302c302c302c302c302c302c302c302c302c302c,
  0x202020203078316231622c30783239642c30783239642c30783239642c30783239642c30783239642c30783239642c30783239642c30783239642c30783239642c30783239642c30783239642c30783239642c30783239642c30783239642c30783239642c,
  0x202020203078313761392c3078313761392c3078313761392c3078313761392c30783231362c30783231362c30783231362c30783231362c30783231362c30783231362c30783231362c30783231362c30783231362c30783231362c30783231362c30783231362c,
  0x20202020302c302c302c302c302c302c302c302c302c302c302c302c302c302c302c302c,
  0x202020203078313635662c3078313635662c3078313635662c3078313635662c3078313635662c3078313635662c3078313635662c3078313635662c3078313635662c3078313635662c30783165392c30783165392c30783165392c30783165392c3078313636352c3078313636352c,
  0x20202020302c302c302c302c302c302c302c302c302c302c302c302c302c302c302c302c,
  0x202020203078313562312c3078313562312c3078313562312c3078313562312c3078313562312c3078313562312c3078313562312c3078313562312c3078313562312c3078313562312c3078313562312c3078313562312c3078313562312c3078313562312c3078313562312c3078313562312c,
  0x202020203078313639622c3078313639622c3078313639622c3078313639622c3078313639622c3078313639622c3078313639622c3078313639622c3078313639622c3078313639622c3078313639622c3078313639622c3078313639622c3078313639622c3078313639622c3078313639622c,
  0x20202020302c302c302c302c302c302c302c302c302c302c302c302c302c302c302c302c,
  0x2020202030783261332c30783261332c30783261332c30783261332c30783261332c30783261332c30783261332c30783261332c30783261332c30783261332c30783261332c30783261332c30783261332c30783261332c30783261332c30783261332c,
  0x20202020302c302c302c302c302c302c302c302c302c302c302c302c302c302c302c302c,
  0x202020203078313731332c3078313731332c3078313731332c3078313731332c30783166652c30783166652c30783166652c30783166652c30783166652c30783166652c30783166652c30783166652c30783166652c30783166652c30783166652c30783166652c,
  0x20202020302c302c302c302c302c302c302c302c302c302c302c302c302c302c302c302c,
  0x2020202030786532652c30786532652c30786532622c30786532622c30786532622c30786532652c307864382c307864382c307864382c307864382c307864382c307864382c307864382c307864382c307864382c307864382c,
  0x20202020302c302c302c302c302c302c302c302c302c302c302c302c302c302c302c302c,
  0x2020202030783232352c3078313763312c3078313763312c3078313763312c3078313763312c3078313763312c3078313763312c3078313763312c3078313763312c3078313763312c3078313763312c3078313763312c3078313763312c3078313763312c3078313763312c3078313763312c,
  0x20202020302c302c302c302c302c302c302c302c302c302c302c302c302c302c302c302c,
  0x202020203078313834352c3078313834352c30783233312c3078313834352c3078313834352c30783233312c3078313834352c3078313834352c3078313834352c3078313834352c3078313834352c30783233312c30783233312c30783233312c30783233312c30783233312c,
  0x20202020302c302c302c302c302c302c302c302c302c302c302c302c302c302c302c302c,
  0x202020203078316136642c3078316136642c3078316136642c3078316136642c3078316136642c3078316136642c3078316136642c3078316136642c3078316136642c3078316136642c30783238322c30783238322c30783238322c30783238322c3078316137302c3078316136612c,
  0x20202020302c302c302c302c302c302c302c302c302c302c302c302c302c302c302c302c,
  0x2020202030783236372c3078313963622c3078313963622c3078313963622c3078313963622c3078313963622c3078313963622c3078313963622c3078313963622c3078313963622c3078313963622c3078313963622c3078313963622c3078313963622c3078313963622c3078313963622c,
  0x2020202030783238352c30783238352c30783238352c30783238352c30783238352c30783238352c30783238352c30783238352c30783238352c30783238352c30783238352c30783238352c30783238352c30783238352c30783238352c30783238352c,
  0x20202020302c302c302c302c302c302c302c302c302c302c302c302c302c302c302c302c,
  0x20202020302c302c302c302c302c302c302c302c302c302c302c302c302c302c30783937622c30783937622c,
  0x20202020332c332c332c332c332c332c332c332c332c332c332c332c332c332c332c332c,
  0x20202020332c332c332c332c332c332c332c332c332c332c332c332c332c332c332c332c,
  0x20202020332c332c30783937622c30783937622c362c362c362c362c362c362c362c362c362c362c362c362c,
  0x20202020362c362c362c362c362c362c362c362c362c362c362c362c362c362c362c362c,
  0x20202020362c362c362c362c30786438632c30786438632c30786438632c30786438632c30786438632c30786438632c30786438632c30786438632c30786438632c30786438632c30786438632c30786438632c,
  0x2020202030786438632c30786438632c30786438632c30786438632c362c362c362c362c362c362c362c362c362c362c362c362c,
  0x20202020362c362c362c362c3078313530392c30783364352c30783365342c30783365342c307831622c30783365612c30783365612c30783365612c30783365612c30783365612c30783365612c30783365612c,
  0x2020202030783365612c307831622c307831622c30783365612c30783365612c307831622c307831622c30783365612c30783365612c30783365612c30783365612c30783365612c30783365612c30783365612c30783365612c30783365612c,
  0x2020202030783365612c30783365612c30783365612c30783365612c30783365612c307831622c30783365612c30783365612c30783365612c30783365612c30783365612c30783365612c30783365612c307831622c30783365612c307831622c,
  0x20202020307831622c307831622c30783365612c30783365612c30783365612c30783365612c307831622c307831622c30783364382c30786365342c30783364352c30783365342c30783365342c30783364352c30783364352c30783364352c,
  0x2020202030783364352c307831622c307831622c30783365342c30783365342c307831622c307831622c30783365372c30783365372c30783364622c30786464642c307831622c307831622c307831622c307831622c307831622c,
  0x20202020307831622c307831622c307831622c30783364352c307831622c307831622c307831622c307831622c30783365642c30783365642c307831622c30783365642c30783365612c30783365612c30783364352c30783364352c,
  0x20202020307831622c307831622c30783936362c30783936362c30783936362c30783936362c30783936362c30783936362c30783936362c30783936362c30783936362c30783936362c30783365612c30783365612c30783365312c30783365312c,
  0x2020202030783364652c30783364652c30783364652c30783364652c30783364652c30783365312c30783364652c3078313135652c3078313861322c3078313839662c3078313934372c307831622c307831652c30786365372c30783366302c30786365612c,
  0x20202020307831652c30783366632c30783366632c30783366632c30783366632c30783366632c30783366632c307831652c307831652c307831652c307831652c30783366632c30783366632c307831652c307831652c30783366632c,
  0x2020202030783366632c30783366632c30783366632c30783366632c30783366632c30783366632c30783366632c30783366632c30783366632c30783366632c30783366632c30783366632c30783366632c307831652c30783366632c30783366632c,
  0x2020202030783366632c30783366632c30783366632c30783366632c30783366632c307831652c30783366632c30783366662c307831652c30783366632c30783366662c307831652c30783366632c30783366632c307831652c307831652c,
  0x2020202030783366332c307831652c30783366392c30783366392c30783366392c30783366302c30783366302c307831652c307831652c307831652c307831652c30783366302c30783366302c307831652c307831652c30783366302c,
  0x2020202030783366302c30783366362c307831652c307831652c307831652c30786662642c307831652c307831652c307831652c307831652c307831652c307831652c307831652c30783366662c30783366662c30783366662c,
  0x2020202030783366632c307831652c30783366662c307831652c307831652c307831652c307831652c307831652c307831652c307831652c30783936392c30783936392c30783936392c30783936392c30783936392c30783936392c,
  0x2020202030783936392c30783936392c30783936392c30783936392c30783366302c30783366302c30783366632c30783366632c30783366632c30786662642c3078313934612c307831652c307831652c307831652c307831652c307831652c]

/-- UnicodeData/CharPropsData.py:1922-2177 the lines. -/
def charText10 : List Nat :=
 [0x20202020307831652c307831652c307831652c307831652c307832312c30783430322c30783430322c30783430622c307832312c30783430652c30783430652c30783430652c30783430652c30783430652c30783430652c30783430652c,
  0x2020202030786366332c30783430652c307832312c30783430652c30783430652c30783430652c307832312c30783430652c30783430652c30783430652c30783430652c30783430652c30783430652c30783430652c30783430652c30783430652c,
  0x2020202030783430652c30783430652c30783430652c30783430652c30783430652c307832312c30783430652c30783430652c30783430652c30783430652c30783430652c30783430652c30783430652c307832312c30783430652c30783430652c,
  0x20202020307832312c30783430652c30783430652c30783430652c30783430652c30783430652c307832312c307832312c30783430352c30783430652c30783430622c30783430622c30783430622c30783430322c30783430322c30783430322c,
  0x2020202030783430322c30783430322c307832312c30783430322c30783430322c30783430622c307832312c30783430622c30783430622c30783430382c307832312c307832312c30783430652c307832312c307832312c307832312c,
  0x20202020307832312c307832312c307832312c307832312c307832312c307832312c307832312c307832312c307832312c307832312c307832312c307832312c30783430652c30786366332c30786365642c30786365642c,
  0x20202020307832312c307832312c30783936632c30783936632c30783936632c30783936632c30783936632c30783936632c30783936632c30783936632c30783936632c30783936632c3078313432322c30786366302c307832312c307832312c,
  0x20202020307832312c307832312c307832312c307832312c307832312c3078313732352c3078313861352c3078313861352c3078313861352c3078313861382c3078313861382c3078313861382c307832342c30783431312c30783432302c30783432302c,
  0x20202020307832342c30783432362c30783432362c30783432362c30783432362c30783432362c30783432362c30783432362c30783432362c307832342c307832342c30783432362c30783432362c307832342c307832342c30783432362c,
  0x2020202030783432362c30783432362c30783432362c30783432362c30783432362c30783432362c30783432362c30783432362c30783432362c30783432362c30783432362c30783432362c30783432362c307832342c30783432362c30783432362c,
  0x2020202030783432362c30783432362c30783432362c30783432362c30783432362c307832342c30783432362c30783432362c307832342c30786366362c30783432362c30783432362c30783432362c30783432362c307832342c307832342c,
  0x2020202030783431342c30783432362c30783431312c30783431312c30783432302c30783431312c30783431312c30783431312c30786663302c307832342c307832342c30783432302c30783432332c307832342c307832342c30783432332c,
  0x2020202030783432332c30783431372c307832342c307832342c307832342c307832342c307832342c307832342c307832342c3078316162352c30783431312c30783431312c307832342c307832342c307832342c307832342c,
  0x2020202030783432392c30783432392c307832342c30783432362c30783432362c30783432362c30786663302c30786663302c307832342c307832342c30783431642c30783431642c30783431642c30783431642c30783431642c30783431642c,
  0x2020202030783431642c30783431642c30783431642c30783431642c30783431612c30786366362c3078313334342c3078313334342c3078313334342c3078313334342c3078313334342c3078313334342c307832342c307832342c307832342c307832342c,
  0x20202020307832342c307832342c307832342c307832342c307832372c307832372c30783432632c30783433382c307832372c30783433382c30783433382c30783433382c30783433382c30783433382c30783433382c307832372c,
  0x20202020307832372c307832372c30783433382c30783433382c30783433382c307832372c30783433382c30783433382c30783433622c30783433382c307832372c307832372c307832372c30783433382c30783433382c307832372c,
  0x2020202030783433382c307832372c30783433382c30783433382c307832372c307832372c307832372c30783433382c30783433382c307832372c307832372c307832372c30783433382c30783433382c30783433382c307832372c,
  0x20202020307832372c307832372c30783433382c30783433382c30783433382c30783433382c30783433382c30783433382c30783433382c30783433382c30786465302c30783433382c30783433382c30783433382c307832372c307832372c,
  0x20202020307832372c307832372c30783432632c30783433322c30783432632c30783433322c30783433322c307832372c307832372c307832372c30783433322c30783433322c30783433322c307832372c30783433352c30783433352c,
  0x2020202030783433352c30783432662c307832372c307832372c30786663332c307832372c307832372c307832372c307832372c307832372c307832372c30783432632c307832372c307832372c307832372c307832372c,
  0x20202020307832372c307832372c307832372c307832372c307832372c307832372c30786566372c30783937322c30783937322c30783937322c30783937322c30783937322c30783937322c30783937322c30783937322c30783937322c,
  0x2020202030783936662c30783936662c30783936662c30786462302c30786366392c30786366392c30786366392c30786366392c30786366392c30786366632c30786366392c307832372c307832372c307832372c307832372c307832372c,
  0x202020203078313530632c30783434612c30783434612c30783434612c3078313934642c30783434642c30783434642c30783434642c30783434642c30783434642c30783434642c30783434642c30783434642c307832612c30783434642c30783434642c,
  0x2020202030783434642c307832612c30783434642c30783434642c30783434642c30783434642c30783434642c30783434642c30783434642c30783434642c30783434642c30783434642c30783434642c30783434642c30783434642c30783434642c,
  0x2020202030783434642c307832612c30783434642c30783434642c30783434642c30783434642c30783434642c30783434642c30783434642c30783434642c30783434642c30783434642c3078313530662c30783434642c30783434642c30783434642c,
  0x2020202030783434642c30783434642c307832612c307832612c307832612c30786663632c30783433652c30783433652c30783433652c30783434612c30783434612c30783434612c30783434612c307832612c30783433652c30783433652c,
  0x2020202030783434312c307832612c30783433652c30783433652c30783433652c30783434342c307832612c307832612c307832612c307832612c307832612c307832612c307832612c30783433652c30783433652c307832612c,
  0x2020202030786663632c30786663632c3078313732382c307832612c307832612c307832612c307832612c307832612c30783434642c30783434642c30786663362c30786663362c307832612c307832612c30783434372c30783434372c,
  0x2020202030783434372c30783434372c30783434372c30783434372c30783434372c30783434372c30783434372c30783434372c307832612c307832612c307832612c307832612c307832612c307832612c307832612c3078316131392c,
  0x2020202030786663392c30786663392c30786663392c30786663392c30786663392c30786663392c30786663392c30786663392c3078313765352c3078313531322c30783435362c30783435362c3078313935302c30783435632c30783435632c30783435632c,
  0x2020202030783435632c30783435632c30783435632c30783435632c30783435632c307832642c30783435632c30783435632c30783435632c307832642c30783435632c30783435632c30783435632c30783435632c30783435632c30783435632c,
  0x2020202030783435632c30783435632c30783435632c30783435632c30783435632c30783435632c30783435632c30783435632c30783435632c307832642c30783435632c30783435632c30783435632c30783435632c30783435632c30783435632c,
  0x2020202030783435632c30783435632c30783435632c30783435632c307832642c30783435632c30783435632c30783435632c30783435632c30783435632c307832642c307832642c30786366662c30786430322c30783435362c30783435302c,
  0x2020202030783435392c30783435362c30783435302c30783435362c30783435362c307832642c30783435302c30783435392c30783435392c307832642c30783435392c30783435392c30783435302c30783435332c307832642c307832642c,
  0x20202020307832642c307832642c307832642c307832642c307832642c30783435302c30783435302c307832642c307832642c307832642c307832642c307832642c307832642c307832642c30783435632c307832642c,
  0x2020202030783435632c30783435632c30786630662c30786630662c307832642c307832642c30783937352c30783937352c30783937352c30783937352c30783937352c30783937352c30783937352c30783937352c30783937352c30783937352c,
  0x20202020307832642c30786631322c30786631322c307832642c307832642c307832642c307832642c307832642c307832642c307832642c307832642c307832642c307832642c307832642c307832642c307832642c,
  0x202020203078313861622c3078313531352c30783436382c30783436382c3078316162382c30783436652c30783436652c30783436652c30783436652c30783436652c30783436652c30783436652c30783436652c307833302c30783436652c30783436652c,
  0x2020202030783436652c307833302c30783436652c30783436652c30783436652c30783436652c30783436652c30783436652c30783436652c30783436652c30783436652c30783436652c30783436652c30783436652c30783436652c30783436652c,
  0x2020202030783436382c30783435662c30783435662c30783435662c30786663662c307833302c30783436382c30783436382c30783436382c307833302c30783436622c30783436622c30783436622c30783436322c3078313334612c3078313765382c,
  0x20202020307833302c307833302c307833302c307833302c3078313765622c3078313765622c3078313765622c30783435662c3078313765382c3078313765382c3078313765382c3078313765382c3078313765382c3078313765382c3078313765382c3078313732622c,
  0x2020202030783436652c30783436652c30786663662c30786663662c307833302c307833302c30783436352c30783436352c30783436352c30783436352c30783436352c30783436352c30783436352c30783436352c30783436352c30783436352c,
  0x2020202030786664322c30786664322c30786664322c30786664322c30786664322c30786664322c3078313765382c3078313765382c3078313765382c30786664352c30786664382c30786664382c30786664382c30786664382c30786664382c30786664382c,
  0x20202020307833332c3078316162622c30786133652c30786133652c307833332c30786134342c30786134342c30786134342c30786134342c30786134342c30786134342c30786134342c30786134342c30786134342c30786134342c30786134342c,
  0x2020202030786134342c30786134342c30786134342c30786134342c30786134342c30786134342c30786134342c307833332c307833332c307833332c30786134342c30786134342c30786134342c30786134342c30786134342c30786134342c,
  0x2020202030786134342c30786134342c30786134342c30786134342c30786134342c30786134342c30786134342c30786134342c30786134342c30786134342c30786134342c30786134342c30786134342c30786134342c307833332c30786134342c,
  0x2020202030786134342c30786134342c30786134342c30786134342c30786134342c30786134342c30786134342c30786134342c307833332c30786134342c307833332c307833332c30786134342c30786134342c30786134342c30786134342c,
  0x2020202030786134342c30786134342c30786134342c307833332c307833332c307833332c30786133382c307833332c307833332c307833332c307833332c30786133352c30786133652c30786133652c30786133352c30786133352c,
  0x2020202030786133352c307833332c30786133352c307833332c30786133652c30786133652c30786134312c30786133652c30786134312c30786134312c30786134312c30786133352c307833332c307833332c307833332c307833332c,
  0x20202020307833332c307833332c3078313531382c3078313531382c3078313531382c3078313531382c3078313531382c3078313531382c3078313531382c3078313531382c3078313531382c3078313531382c307833332c307833332c30786133652c30786133652c,
  0x2020202030786133622c307833332c307833332c307833332c307833332c307833332c307833332c307833332c307833332c307833332c307833332c307833332c307833362c30783438392c30783438392c30783438392c,
  0x2020202030783438392c30783438392c30783438392c30783438392c30783438392c30783438392c30783438392c30783438392c30783438392c30783438392c30783438392c30783438392c30783438392c30783438392c30783438392c30783438392c,
  0x2020202030783438392c30783438392c30783438392c30783438392c30783438392c30783438392c30783438392c30783438392c30783438392c30783438392c30783438392c30783438392c30783438392c30783437342c30783438392c30783438362c,
  0x2020202030783437342c30783437342c30783437342c30783437342c30783437342c30783437342c30783437612c307833362c307833362c307833362c307833362c30783437312c30783438662c30783438662c30783438662c30783438662c,
  0x2020202030783438662c30783438392c30783438632c30783437372c30783437372c30783437372c30783437372c30783437372c30783437372c30783437342c30783437372c30783437642c30783438332c30783438332c30783438332c30783438332c,
  0x2020202030783438332c30783438332c30783438332c30783438332c30783438332c30783438332c30783438302c30783438302c307833362c307833362c307833362c307833362c307833362c307833362c307833362c307833362c,
  0x20202020307833362c307833362c307833362c307833362c307833362c307833362c307833362c307833362c307833362c307833362c307833362c307833362c307833362c307833362c307833362c307833362c,
  0x20202020307833362c307833362c307833362c307833362c307833362c307833362c307833362c307833362c307833392c30783439652c30783439652c307833392c30783439652c307833392c3078316131662c30783439652c,
  0x2020202030783439652c3078316131662c30783439652c307833392c3078316131662c30783439652c3078316131662c3078316131662c3078316131662c3078316131662c3078316131662c3078316131662c30783439652c30783439652c30783439652c30783439652c,
  0x202020203078316131662c30783439652c30783439652c30783439652c30783439652c30783439652c30783439652c30783439652c3078316131662c30783439652c30783439652c30783439652c307833392c30783439652c307833392c30783439652c,
  0x202020203078316131662c3078316131662c30783439652c30783439652c3078316131662c30783439652c30783439652c30783439652c30783439652c30783439322c30783439652c30783439622c30783439322c30783439322c30783439322c30783439322c,
  0x2020202030783439322c30783439322c3078316131632c30783439322c30783439322c30783439652c307833392c307833392c30783461372c30783461372c30783461372c30783461372c30783461372c307833392c30783461342c307833392c,
  0x2020202030783439352c30783439352c30783439352c30783439352c30783439352c30783439322c307833392c307833392c30783439382c30783439382c30783439382c30783439382c30783439382c30783439382c30783439382c30783439382c,
  0x2020202030783439382c30783439382c307833392c307833392c30783461312c30783461312c3078313432352c3078313432352c307833392c307833392c307833392c307833392c307833392c307833392c307833392c307833392c,
  0x20202020307833392c307833392c307833392c307833392c307833392c307833392c307833392c307833392c307833392c307833392c307833392c307833392c307833392c307833392c307833392c307833392c,
  0x20202020307833392c307833392c307833392c307833392c307833392c307833392c307833392c307833392c30783962372c30783962372c30783962372c30783962612c30783962372c30783962372c30783962372c30783962372c,
  0x20202020307833632c30783962372c30783962372c30783962372c30783962372c30783962612c30783962372c30783962372c30783962372c30783962372c30783962612c30783962372c30783962372c30783962372c30783962372c30783962612c,
  0x2020202030783962372c30783962372c30783962372c30783962372c30783962612c30783962372c30783962372c30783962372c30783962372c30783962372c30783962372c30783962372c30783962372c30783962372c30783962372c30783962372c,
  0x2020202030783962372c30783962612c30786135332c30786665342c30786665342c307833632c307833632c307833632c307833632c30783938342c30783938342c30783938372c30783938342c30783938372c30783938372c30783939302c,
  0x2020202030783938372c30783939302c30783938342c30783938342c30783938342c30783938342c30783938342c30783962312c30783938342c30783938372c30783938612c30783938612c30783938642c30783939362c30783938612c30783938612c,
  0x2020202030783962372c30783962372c30783962372c30783962372c3078313335332c3078313334642c3078313334642c3078313334642c30783938342c30783938342c30783938342c30783938372c30783938342c30783938342c30786134372c30783938342c,
  0x20202020307833632c30783938342c30783938342c30783938342c30783938342c30783938372c30783938342c30783938342c30783938342c30783938342c30783938372c30783938342c30783938342c30783938342c30783938342c30783938372c,
  0x2020202030783938342c30783938342c30783938342c30783938342c30783938372c30783938342c30786134372c30786134372c30786134372c30783938342c30783938342c30783938342c30783938342c30783938342c30783938342c30783938342c,
  0x2020202030786134372c30783938372c30786134372c30786134372c30786134372c307833632c30786135302c30786135302c30786134642c30786134642c30786134642c30786134642c30786134642c30786134642c30786134612c30786134642c,
  0x2020202030786134642c30786134642c30786134642c30786134642c30786134642c307833632c30786664622c30786134642c30786465332c30786465332c30786664652c30786665312c30786664622c3078313136312c3078313136312c3078313136312c,
  0x202020203078313136312c3078313335302c3078313335302c307833632c307833632c307833632c307833632c307833632c307833632c307833632c307833632c307833632c307833632c307833632c307833632c307833632c,
  0x20202020307833632c307833632c307833632c307833632c307833632c307833632c307833632c307833632c307833632c307833632c307833632c307833632c307833632c307833632c307833632c307833632c,
  0x20202020307833632c307833632c307833632c307833632c30783461642c30783461642c30783461642c30783461642c30783461642c30783461642c307833662c3078313432622c307833662c307833662c307833662c307833662c,
  0x20202020307833662c3078313432622c307833662c307833662c30783461612c30783461612c30783461612c30783461612c30783461612c30783461612c30783461612c30783461612c30783461612c30783461612c30783461612c30783461612c,
  0x2020202030783461612c30783461612c30783461612c30783461612c30786137642c30786137642c30786137642c30786137642c30786137642c30786137642c30786137642c30786466322c30786137642c307834322c30786137642c30786137642c,
  0x2020202030786137642c30786137642c307834322c307834322c30786137642c30786137642c30786137642c30786137642c30786137642c30786137642c30786137642c307834322c30786137642c307834322c30786137642c30786137642c,
  0x2020202030786137642c30786137642c307834322c307834322c30786137642c30786137642c30786137642c30786137642c30786137642c30786137642c30786137642c30786466322c30786137642c307834322c30786137642c30786137642c,
  0x2020202030786137642c30786137642c307834322c307834322c30786137642c30786137642c30786137642c30786137642c30786137642c30786137642c30786137642c30786137642c30786137642c30786137642c30786137642c30786137642c,
  0x2020202030786137642c30786137642c30786137642c30786137642c30786137642c30786137642c30786137642c30786466322c30786137642c307834322c30786137642c30786137642c30786137642c30786137642c307834322c307834322c,
  0x2020202030786137642c30786137642c30786137642c30786137642c30786137642c30786137642c30786137642c307834322c30786137642c307834322c30786137642c30786137642c30786137642c30786137642c307834322c307834322c,
  0x2020202030786137642c30786137642c30786137642c30786137642c30786137642c30786137642c30786137642c30786466322c30786137642c30786137642c30786137642c30786137642c30786137642c30786137642c30786137642c307834322c,
  0x2020202030786137642c30786137642c30786137642c30786137642c30786137642c30786137642c30786137642c30786137642c30786137642c30786137642c30786137642c30786137642c30786137642c30786137642c30786137642c30786466322c,
  0x2020202030786137642c307834322c30786137642c30786137642c30786137642c30786137642c307834322c307834322c30786137642c30786137642c30786137642c30786137642c30786137642c30786137642c30786137642c30786466322c,
  0x2020202030786137642c30786137642c30786137642c30786137642c30786137642c30786137642c30786137642c30786137642c30786137642c30786137642c30786137642c30786137642c30786137642c30786137642c30786137642c30786137642c,
  0x2020202030786137642c30786137642c30786137642c307834322c307834322c3078313335362c3078313335362c30786465632c30786465662c30786137372c30786138302c30786137342c30786137342c30786137342c30786137342c30786138302c,
  0x2020202030786138302c30786137612c30786137612c30786137612c30786137612c30786137612c30786137612c30786137612c30786137612c30786137612c30786137312c30786137312c30786137312c30786137312c30786137312c30786137312c,
  0x2020202030786137312c30786137312c30786137312c30786137312c30786137312c307834322c307834322c307834322c30786138332c30786138332c30786138332c30786138332c30786138332c30786138332c30786138332c30786138332c,
  0x2020202030786138332c30786138332c30786138332c30786138332c30786138332c30786138332c30786138332c30786138332c30786138332c30786138332c30786138332c30786138332c30786138332c3078313733312c307834352c307834352c,
  0x202020203078313732652c3078313732652c3078313732652c3078313732652c3078313732652c3078313732652c307834352c307834352c30786139352c30786139382c30786139382c30786139382c30786139382c30786139382c30786139382c30786139382c,
  0x2020202030786139382c30786139382c30786139382c30786139382c30786139382c30786139382c30786139382c30786139382c30786139382c30786139382c30786139382c30786139382c30786139382c30786139382c30786139382c30786139382c,
  0x2020202030786139382c30786139382c30786139382c30786139322c30786138662c307834382c307834382c307834382c30786139652c30786139652c30786139652c30786139652c30786139652c30786139652c30786139652c30786139652c,
  0x2020202030786139652c30786139652c30786139652c30786139622c30786139622c30786139622c30786139652c30786139652c30786139652c3078313531622c3078313531622c3078313531622c3078313531622c3078313531622c3078313531622c3078313531622c,
  0x202020203078313531622c307834622c307834622c307834622c307834622c307834622c307834622c307834622c30786162662c30786162662c30786162662c30786162662c30786162662c30786162662c30786161312c30786162662c,
  0x2020202030786162662c30786161342c30786161342c30786161342c30786161342c30786161342c30786161342c30786161342c30786161342c30786161342c30786161372c30786161342c30786162362c30786162362c30786162392c30786163322c,
  0x2020202030786162302c30786161642c30786162362c30786162332c30786163322c30786430352c307834652c307834652c30786162632c30786162632c30786162632c30786162632c30786162632c30786162632c30786162632c30786162632c,
  0x2020202030786162632c30786162632c307834652c307834652c307834652c307834652c307834652c307834652c30786430382c30786430382c30786430382c30786430382c30786430382c30786430382c30786430382c30786430382c,
  0x2020202030786430382c30786430382c307834652c307834652c307834652c307834652c307834652c307834652c30786164312c30786164312c30786235322c30786235352c30786164372c30786234662c30786164342c30786164312c,
  0x2020202030786164612c30786165392c30786164642c30786165632c30786165632c30786165632c30786163382c307835312c30786165302c30786165302c30786165302c30786165302c30786165302c30786165302c30786165302c30786165302c,
  0x2020202030786165302c30786165302c307835312c307835312c307835312c307835312c307835312c307835312c30786165332c30786165332c30786165332c30786165332c30786165332c30786165332c30786165332c30786165332c,
  0x2020202030786165332c30786165332c30786165332c30786165332c30786165332c30786165332c30786165332c30786165332c30786165332c30786165332c30786165332c30786165332c30786165332c30786165332c30786165332c30786165332c,
  0x202020203078313935332c307835312c307835312c307835312c307835312c307835312c307835312c307835312c30786165332c30786165332c30786165332c30786165332c30786165332c30786165332c30786165332c30786165332c,
  0x2020202030786165332c30786163622c3078313030322c307835312c307835312c307835312c307835312c307835312c3078313162382c3078313162382c3078313162382c3078313162382c3078313162382c3078313162382c3078313162382c3078313162382c,
  0x202020203078313162382c3078313162382c3078313162382c3078313162382c3078313162382c3078313162382c3078313162382c3078313162382c30783463622c30783463622c30783463622c30783463622c30783463622c30783463622c30783463622c30783463622c,
  0x2020202030783463652c30783463652c30783463652c30783463652c30783463652c30783463652c30783463652c30783463652c30783463622c30783463622c30783463622c30783463622c30783463622c30783463622c307835342c307835342c,
  0x2020202030783463652c30783463652c30783463652c30783463652c30783463652c30783463652c307835342c307835342c30783463622c30783463622c30783463622c30783463622c30783463622c30783463622c30783463622c30783463622c,
  0x20202020307835342c30783463652c307835342c30783463652c307835342c30783463652c307835342c30783463652c30783463622c30783463622c30783463622c30783463622c30783463622c30783463622c30783463622c30783463622c,
  0x2020202030783463652c30783463652c30783463652c30783463652c30783463652c30783463652c30783463652c30783463652c30783463622c30783463622c30783463622c30783463622c30783463622c30783463622c30783463622c30783463622c,
  0x2020202030783463622c30783463622c30783463622c30783463622c30783463622c30783463622c307835342c307835342c30783463622c30783463622c30783463622c30783463622c30783463622c30783463622c30783463622c30783463622c,
  0x2020202030783463652c30783463652c30783463652c30783463652c30783463652c30783463652c30783463652c30783463652c30783463622c30783463622c30783463622c30783463622c30783463622c307835342c30783463622c30783463622c,
  0x2020202030783463652c30783463652c30783463652c30783463652c30783463652c30783463352c30783463622c30783463352c30783463352c30783463322c30783463622c30783463622c30783463622c307835342c30783463622c30783463622c,
  0x2020202030783463652c30783463652c30783463652c30783463652c30783463652c30783463322c30783463322c30783463322c30783463622c30783463622c30783463622c30783463622c307835342c307835342c30783463622c30783463622c,
  0x2020202030783463652c30783463652c30783463652c30783463652c307835342c30783463322c30783463322c30783463322c30783463622c30783463622c30783463622c30783463622c30783463622c30783463622c30783463622c30783463622c,
  0x2020202030783463652c30783463652c30783463652c30783463652c30783463652c30783463322c30783463322c30783463322c307835342c307835342c30783463622c30783463622c30783463622c307835342c30783463622c30783463622c,
  0x2020202030783463652c30783463652c30783463652c30783463652c30783463652c30783463382c30783463352c307835342c30786263612c30786263642c30786263642c30786263642c3078313030622c307835372c3078313466372c3078313466372c,
  0x202020203078313466372c3078313466372c30783464372c30783464372c30783464372c30783464372c30783464372c30783464372c30783532322c30786264662c307835612c307835612c30783665312c30783532322c30783532322c30783532322c,
  0x2020202030783532322c30783532322c30783532382c30783533612c30783532382c30783533342c30783532652c30783665342c30783531662c30783664652c30783664652c30783664652c30783664652c30783531662c30783531662c30783531662c,
  0x2020202030783531662c30783531662c30783532352c30783533372c30783532352c30783533312c30783532622c307835612c30786466622c30786466622c30786466622c30786466622c30786466622c3078313335392c3078313335392c3078313335392c,
  0x202020203078313335392c3078313335392c3078313335392c3078313335392c3078313335392c307835612c307835612c307835612c307835642c307835642c307835642c307835642c307835642c307835642c307835642c307835642c,
  0x20202020307835642c307835642c307835642c307835642c307835642c307835642c307835642c307835642c30783534392c30783534392c30783534392c30783534392c30783534392c30783534392c30783534392c30783534392c,
  0x2020202030783534392c30783534392c30783534392c30783534392c30783534392c30783534362c30783534362c30783534362c30783534362c30783534392c30786166622c30786166652c30786265352c30786265622c30786265622c30786265382c,
  0x2020202030786265382c30786265382c30786265382c30786530312c30786631352c30786631352c30786631352c30786631352c3078313134632c307836302c307836302c307836302c307836302c307836302c307836302c307836302c,
  0x20202020307836302c307836302c307836302c307836302c307836302c307836302c307836302c307836302c30783537392c30783537392c30783537392c30786230372c30786631652c3078313031312c3078313031312c3078313031312c,
  0x202020203078313031312c3078313261622c3078313733372c3078313733372c307836332c307836332c307836332c307836332c30783730622c30783730622c30783730622c30783730622c30783730652c30783730652c30783730652c30783730652c,
  0x2020202030783730652c30783730652c30783538352c30783538352c30783538322c30783538322c30783538322c30783538322c30783561632c30783561632c30783561632c30783561632c30783561632c30786231332c30786231332c307836362c,
  0x20202020307836362c307836362c307836362c307836362c307836362c307836362c307836362c307836362c307836362c307836362c307836362c307836362c307836362c307836362c307836362c307836362c,
  0x20202020307836362c307836362c307836362c307836362c307836362c307836362c307836362c307836362c30783561662c30783561662c30783561662c30783561662c30783561662c30783561662c30783561662c30783561662c,
  0x2020202030783561662c30783561662c30783561662c307836392c307836392c307836392c307836392c307836392c307836392c307836392c307836392c307836392c307836392c307836392c307836392c307836392c,
  0x20202020307836392c307836392c307836392c307836392c307836392c307836392c307836392c307836392c30786232652c30786232652c30786232652c30786232652c30786232652c30786232652c30786232652c30786232652c,
  0x2020202030786232652c30786232652c30786232652c30786232652c30786232652c30786232652c30786232652c30786232652c30786232652c30786232652c30786232652c30786232652c30786232652c30786232652c30786232652c30786232652c,
  0x2020202030786232652c30786232652c307836632c30786232652c30786232652c30786232652c30786232652c30786233312c30786232652c30786232652c30786232652c30786232652c30786232652c30786232652c30786232652c30786232652c,
  0x2020202030786232652c30786232652c30786232652c30786232652c30786232652c30786232652c30786232652c30786232652c30786232652c30786232652c30786232652c30786233312c307836632c307836632c307836632c307836632c,
  0x20202020307836632c307836632c307836632c307836632c307836632c307836632c307836632c307836632c30786233342c30786233342c30786233342c30786233342c30786233342c30786233342c30786233342c30786233342c,
  0x2020202030786233342c30786233342c30786233342c30786233342c30786233342c30786233342c30786233342c30786233342c30786233342c30786233342c30786233342c30786233342c30786233342c30786233342c307836662c307836662c,
  0x20202020307836662c307836662c307836662c307836662c307836662c307836662c307836662c307836662c307837352c30783834332c30783833642c30783834332c30783833642c30783834332c30783833642c30783834332c,
  0x2020202030783833642c30783834332c30783833642c30783833642c30783834302c30783833642c30783834302c30783833642c30783834302c30783833642c30783834302c30783833642c30783834302c30783833642c30783834302c30783833642c,
  0x2020202030783834302c30783833642c30783834302c30783833642c30783834302c30783833642c30783834302c30783833642c30783833642c30783833642c30783833642c30783834332c30783833642c30783834332c30783833642c30783834332c,
  0x2020202030783833642c30783833642c30783833642c30783833642c30783833642c30783833642c30783834332c30783833642c30783833642c30783833642c30783833642c30783833642c30783834302c30786339332c30786339332c307837352c,
  0x20202020307837352c30783935342c30783935342c30783931652c30783931652c30783834362c30783834392c30786339302c307837382c307837382c307837382c307837382c307837382c30783835622c30783835622c30783835622c,
  0x2020202030783835622c30783835622c30783835622c30783835622c30783835622c30783835622c30783835622c30783835622c30783835622c30783835622c30783835622c30783835622c30783835622c30783835622c30783835622c30783835622c,
  0x2020202030783835622c30783835622c30783835622c30783835622c30783835622c30783835622c30783835622c30783835622c30783835622c3078313133612c3078313931612c3078316130312c307837622c30783835652c30783835652c30783835652c,
  0x2020202030783835652c30783835652c30783835652c30783835652c30783835652c30783835652c30783835652c30783835652c30783835652c30783835652c30783835652c30783835652c30783835652c30783835652c30783835652c307837622c,
  0x2020202030783932372c30783932372c30783932612c30783932612c30783932612c30783932612c30783932612c30783932612c30783932612c30783932612c30783932612c30783932612c30783932612c30783932612c30783932612c30783932612c,
  0x2020202030783836372c30783836372c30783836372c30783836372c30783836372c30783836372c30783836372c30783836372c30783836372c30783836372c30783836372c30783836372c30783836372c30783836372c30783836372c30783836372c,
  0x2020202030783836372c30783836372c30783836372c30783836372c30783836372c30783836372c30783836372c30783836372c30783836372c30783836372c30783836372c30783836372c30783836372c30786439382c30786439382c307837652c,
  0x2020202030786234362c30786234362c30786234362c30786234362c30786234362c30786234362c30786234362c30786234362c30786234362c30786234362c30786234362c30786234362c30786234362c307838312c307838312c307838312c,
  0x2020202030786234632c30786234632c30786234632c30786234632c30786234632c30786234632c30786234632c30786234632c30786234632c30786234632c30786234632c30786234632c30786234632c30786234632c30786234632c30786234632c,
  0x2020202030786234632c30786339632c30786234632c30786234632c30786234632c30786339632c30786234632c307838342c307838342c307838342c307838342c307838342c307838342c307838342c307838342c307838342c,
  0x202020203078313164662c3078313164662c3078313164662c3078313164662c3078313164662c3078313164662c3078313164662c3078313164662c3078313164662c3078313164662c3078313164662c3078313164662c3078313164662c3078313164662c3078313164662c3078313164662c,
  0x2020202030783964622c30783964622c30783964622c30783964622c307838372c307838372c307838372c307838372c307838372c307838372c307838372c307838372c307838372c307838372c307838372c307838372c,
  0x202020203078313235342c3078313235342c3078313235342c3078313235342c3078313235342c3078313235342c3078313235342c3078313235342c3078313235342c3078313235342c3078313235342c3078313235342c3078313235342c3078313235342c3078313235342c3078313235342c,
  0x2020202030783630632c30783630632c30783630632c30783630632c30783630632c30783630632c30783630632c307838612c307838612c307838612c307838612c307838612c307838612c307838612c307838612c307838612c,
  0x20202020307838612c307838612c307838612c30783566612c30783566612c30783566612c30783566612c30783566612c307838612c307838612c307838612c307838612c307838612c30786231662c30783566642c30783630332c,
  0x2020202030783630392c30783630392c30783630392c30783630392c30783630392c30783630392c30783630392c30783630392c30783630392c30783630302c30783630332c30783630332c30783630332c30783630332c30783630332c30783630332c,
  0x2020202030783630332c30783630332c30783630332c30783630332c30783630332c30783630332c30783630332c307838612c30783630332c30783630332c30783630332c30783630332c30783630332c307838612c30783630332c307838612c,
  0x2020202030783630332c30783630332c307838612c30783630332c30783630332c307838612c30783630332c30783630332c30783630332c30783630332c30783630332c30783630332c30783630332c30783630332c30783630332c30783630362c,
  0x2020202030783631652c30783631382c30783631652c30783631382c30783631622c30783632312c30783631652c30783631382c30783631622c30783632312c30783631652c30783631382c30783631622c30783632312c30783631652c30783631382c,
  0x202020203078313336622c3078313336622c307838642c307838642c307838642c307838642c307838642c307838642c307838642c307838642c307838642c307838642c307838642c307838642c307838642c307838642c,
  0x20202020307838642c307838642c307838642c30783631652c30783631382c30783631622c30783632312c30783631652c30783631382c30783631652c30783631382c30783631652c30783631382c30783631652c30783631652c30783631382c,
  0x20202020307838642c307838642c307838642c307838642c307838642c307838642c307838642c307838642c307838642c307838642c307838642c307838642c307838642c307838642c307838642c307838642c,
  0x2020202030783631622c30783631382c30783631622c30783631622c30783631622c30783631622c30783631622c30783631622c30783631382c30783631622c30783631382c30783631382c30783631622c30783631622c30783631382c30783631382c,
  0x2020202030783631382c30783631382c30783631382c30783631622c30783631382c30783631382c30783631622c30783631382c30783631622c30783631622c30783631622c30783631382c30783631622c30783631622c30783631622c30783631622c,
  0x20202020307838642c307838642c30783631622c30783631622c30783631622c30783631622c30783631382c30783631382c30783631622c30783631382c30783631382c30783631382c30783631382c30783631622c30783631382c30783631382c,
  0x2020202030783631382c30783631382c30783631382c30783631622c30783631622c30783631622c30783631382c30783631382c307838642c307838642c307838642c307838642c307838642c307838642c307838642c307838642c,
  0x2020202030786236612c30786236612c30786236612c30786236612c30786236612c30786236612c30786236612c30786236612c30786236612c30786236612c30786236612c30786236612c30786236612c30786236612c30786236612c30786236612c,
  0x2020202030783631652c30783631652c30783937382c30783631652c30783631652c30783631652c30783631652c30783631652c30783631652c30783631652c30783631352c30783631352c30786332342c30786462332c307838642c307838642c,
  0x2020202030783837662c30783839312c30783838652c30783839312c30783838652c30786362312c30786362312c30786461342c30786461312c30783838322c30783838322c30783838322c30783838322c30783839342c30783839342c30783839342c,
  0x2020202030783861632c30783861662c30783862652c307839302c30783862322c30783862352c30783863312c30783863312c30783861392c30783861302c30783839612c30783861302c30783839612c30783861302c30783839612c30783839642c,
  0x2020202030783839642c30783862382c30783862382c30783862622c30783862382c30783862382c30783862382c307839302c30783862382c30783861362c30783861332c30783839642c307839302c307839302c307839302c307839302c,
  0x2020202030783632612c30783633362c30783632612c30786332372c30783632612c307839332c30783632612c30783633362c30783632612c30783633362c30783632612c30783633362c30783632612c30783633362c30783632612c30783633362c,
  0x2020202030783633362c30783633332c30783632642c30783633302c30783633362c30783633332c30783632642c30783633302c30783633362c30783633332c30783632642c30783633302c30783633362c30783633332c30783632642c30783633332c,
  0x2020202030783632642c30783633332c30783632642c30783633302c30783633362c30783633332c30783632642c30783633332c30783632642c30783633332c30783632642c30783633332c30783632642c307839332c307839332c30783632372c,
  0x2020202030783737642c30783738302c30783739352c30783739382c30783737372c30783738302c30783738302c307839392c30783735662c30783736322c30783736322c30783736322c30783736322c30783735662c30783735662c307839392c,
  0x20202020307839362c307839362c307839362c307839362c307839362c307839362c307839362c307839362c307839362c30786232322c30786232322c30786232322c30783964652c30783735392c30783633392c30783633392c,
  0x20202020307839392c30783761372c30783738362c30783737372c30783738302c30783737642c30783737372c30783738392c30783737612c30783737342c30783737372c30783739352c30783738632c30783738332c30783761342c30783737372c,
  0x2020202030783761312c30783761312c30783761312c30783761312c30783761312c30783761312c30783761312c30783761312c30783761312c30783761312c30783739322c30783738662c30783739352c30783739352c30783739352c30783761372c,
  0x2020202030783736382c30783736352c30783736352c30783736352c30783736352c30783736352c30783736352c30783736352c30783736352c30783736352c30783736352c30783736352c30783736352c30783736352c30783736352c30783736352c,
  0x2020202030783736352c30783736352c30783736352c30783736352c30783736352c30783736352c30783736352c30783736352c30783736352c30783736352c30783736352c30783736352c30783736352c30783736352c30783736352c307839392c,
  0x20202020307839392c307839392c30783736352c30783736352c30783736352c30783736352c30783736352c30783736352c307839392c307839392c30783736352c30783736352c30783736352c30783736352c30783736352c30783736352c,
  0x20202020307839392c307839392c30783736352c30783736352c30783736352c30783736352c30783736352c30783736352c307839392c307839392c30783736352c30783736352c30783736352c307839392c307839392c307839392c,
  0x2020202030786236642c30786236642c30786236642c30786236642c307839632c307839632c307839632c307839632c307839632c307839632c307839632c307839632c307839632c3078313862372c3078313862372c3078313862372c,
  0x2020202030786237332c30786237332c30786237332c30786237332c30786237332c30786237332c30786237332c30786237332c30786237332c30786237332c30786237332c30786237332c30786237332c30786237332c30786237332c30786237332c,
  0x2020202030786237332c30786237332c30786237332c307839662c307839662c307839662c307839662c307839662c3078313638332c3078313638332c3078313638332c3078313638332c3078313638332c3078313638332c3078313638332c3078313638332c,
  0x202020203078313638332c3078313638332c3078313638332c3078313638332c3078313638332c3078313638332c3078313638332c3078313638332c30786237632c30786237632c30786237632c30786237632c30786237632c30786237632c30786237632c30786237632c,
  0x2020202030786237632c30786237632c30786237632c30786237632c30786237632c30786237632c30786237632c30786237632c30786237632c30786237632c30786237632c30786237632c30786237632c30786237632c307861322c307861322c,
  0x20202020307861322c307861322c307861322c307861322c307861322c307861322c307861322c307861322c30786238382c30786238382c30786238382c30786238382c30786238382c30786238382c30786238382c307861352c,
  0x20202020307861352c3078313031642c30786238382c30786238382c30786238382c30786238382c30786238382c30786238382c30786238382c30786238382c30786238382c30786238382c30786238382c30786238382c30786238382c30786238382c,
  0x2020202030786238382c30786238382c30786238382c30786238382c30786238382c30786238382c30786238382c30786238382c3078313733642c3078313733642c3078313733642c3078313733642c3078313733642c3078313733642c3078313733642c3078313733642c,
  0x202020203078313733642c307861352c307861352c307861352c307861352c307861352c307861352c307861352c307861352c307861352c307861352c307861352c307861352c307861352c307861352c307861352c,
  0x20202020307861352c307861352c307861352c307861352c307861352c307861352c307861352c307861352c30786261302c30786261302c30786261302c30786261302c30786261302c30786261302c30786261302c30786261302c,
  0x2020202030786261302c30786261302c30786261302c30786261302c30786261302c30786261302c30786239642c30786239642c30786239642c30786239642c30786239642c30786239642c30786239642c307861382c30786239642c30786239642c,
  0x2020202030786239642c30786239642c30786239642c30786239642c30786239642c30786239642c30786239642c30786239642c30786261302c30786261302c30786239642c30786239642c30786239642c30786239642c30786239642c30786239642c,
  0x2020202030786239642c30786239642c30786239642c30786239642c30786239642c30786239642c30786239642c30786239642c30786239642c30786239642c30786239642c30786239642c30786239642c30786239642c30786239642c30786239642c,
  0x2020202030786239642c30786239642c30786239642c30786239642c30786261302c307861382c30786261302c30786261302c307861382c307861382c30786261302c307861382c307861382c30786261302c30786261302c307861382c,
  0x20202020307861382c30786261302c30786261302c30786261302c30786261302c307861382c30786261302c30786261302c30786261302c30786261302c30786261302c30786261302c30786261302c30786261302c30786239642c30786239642c,
  0x2020202030786239642c30786239642c307861382c30786239642c307861382c30786239642c30786239642c30786239642c30786239642c30786432392c30786239642c30786239642c307861382c30786239642c30786239642c30786239642c,
  0x2020202030786239642c30786239642c30786239642c30786239642c30786239642c30786239642c30786239642c30786239642c30786261302c30786261302c30786261302c30786261302c30786261302c30786261302c30786261302c30786261302c,
  0x2020202030786261302c30786261302c30786261302c30786261302c30786261302c30786261302c30786261302c30786261302c30786239642c30786239642c30786239642c30786239642c30786261302c30786261302c307861382c30786261302c,
  0x2020202030786261302c30786261302c30786261302c307861382c307861382c30786261302c30786261302c30786261302c30786261302c30786261302c30786261302c30786261302c30786261302c307861382c30786261302c30786261302c,
  0x2020202030786261302c30786261302c30786261302c30786261302c30786261302c307861382c30786239642c30786239642c30786239642c30786239642c30786239642c30786239642c30786239642c30786239642c30786239642c30786239642c,
  0x2020202030786239642c30786239642c30786239642c30786239642c30786239642c30786239642c30786239642c30786239642c30786239642c30786239642c30786239642c30786239642c30786239642c30786239642c30786239642c30786239642c,
  0x2020202030786261302c30786261302c307861382c30786261302c30786261302c30786261302c30786261302c307861382c30786261302c30786261302c30786261302c30786261302c30786261302c307861382c30786261302c307861382c,
  0x20202020307861382c307861382c30786261302c30786261302c30786261302c30786261302c30786261302c30786261302c30786261302c307861382c30786239642c30786239642c30786239642c30786239642c30786239642c30786239642c,
  0x2020202030786239642c30786239642c30786239642c30786239642c30786239642c30786239642c30786239642c30786239642c30786531362c30786531362c307861382c307861382c30786261302c30786261302c30786261302c30786261302c,
  0x2020202030786261302c30786261302c30786261302c30786261302c30786261302c30786261302c30786261302c30786261302c30786261302c30786261302c30786261302c30786261302c30786261302c30786261302c30786261302c30786261302c,
  0x2020202030786261302c30786261302c30786261302c30786261302c30786239642c30786239642c30786239642c30786239372c30786239642c30786239642c30786239642c30786239642c30786239642c30786239642c30786632642c30786632612c,
  0x20202020307861382c307861382c30786239612c30786239612c30786239612c30786239612c30786239612c30786239612c30786239612c30786239612c30786239612c30786239612c30786239612c30786239612c30786239612c30786239612c,
  0x2020202030786239612c30786239612c30786239612c30786239612c307861622c30786261362c307861622c307861622c307861622c307861622c307861622c307861622c307861622c307861622c307861622c307861622c,
  0x20202020307861622c307861622c307861622c307861622c307861622c307861622c307861622c307861622c307861622c307861622c307861622c307861622c307861622c307861622c307861622c307861622c,
  0x20202020307861622c307861622c307861622c307861622c30786333362c30786333362c30786333362c30786333362c30786333362c30786333362c30786333362c30786333362c30786333362c30786333362c30786333362c30786333362c,
  0x2020202030786333362c307861652c30786333362c30786333362c30786333362c30786333362c30786333302c30786333302c30786333332c307861652c307861652c307861652c307861652c307861652c307861652c307861652c,
  0x20202020307861652c307861652c307861652c307861652c30786333662c30786333662c30786333662c30786333662c30786333662c30786333662c30786333662c30786333662c30786333662c30786333662c30786333662c30786333662c,
  0x2020202030786333662c30786333662c30786333662c30786333662c30786333662c30786333662c30786333392c30786333392c30786333632c30786361352c30786361352c307862312c307862312c307862312c307862312c307862312c,
  0x20202020307862312c307862312c307862312c307862312c30786334352c30786334352c30786334352c30786334352c30786334352c30786334352c30786334352c30786334352c30786334352c30786334352c30786334352c30786334352c,
  0x2020202030786334352c30786334352c30786334352c30786334352c30786334352c30786334352c30786334322c30786334322c307862342c307862342c307862342c307862342c307862342c307862342c307862342c307862342c,
  0x20202020307862342c307862342c307862342c307862342c30786334622c30786334622c30786334622c30786334622c30786334622c30786334622c30786334622c30786334622c30786334622c30786334622c30786334622c30786334622c,
  0x2020202030786334622c307862372c30786334622c30786334622c30786334622c307862372c30786334382c30786334382c307862372c307862372c307862372c307862372c307862372c307862372c307862372c307862372c,
  0x20202020307862372c307862372c307862372c307862372c30786433622c30786433622c30786433622c30786433622c30786433622c30786433622c30786433622c30786433622c30786433622c30786433622c30786433622c30786433622c,
  0x2020202030786433622c30786433622c30786433622c30786433622c30786433622c30786433622c30786433622c30786433622c30786433622c30786433622c30786433622c30786433622c30786433622c30786433622c30786433622c30786433622c,
  0x2020202030786433622c3078313533392c3078313533392c307862612c30786432632c30786432632c30786432632c30786433382c30786433382c30786433382c30786433382c30786432632c30786432632c30786433382c30786433382c30786433382c,
  0x20202020307862612c307862612c307862612c307862612c30786433382c30786433382c30786432632c30786433382c30786433382c30786433382c30786433382c30786433382c30786433382c30786432662c30786432662c30786432662c,
  0x20202020307862612c307862612c307862612c307862612c30786433322c307862612c307862612c307862612c30786433652c30786433652c30786433352c30786433352c30786433352c30786433352c30786433352c30786433352c,
  0x2020202030786433352c30786433352c30786433352c30786433352c30786434312c30786434312c30786434312c30786434312c30786434312c30786434312c30786434312c30786434312c30786434312c30786434312c30786434312c30786434312c,
  0x2020202030786434312c30786434312c30786434312c30786434312c30786434312c30786434312c307862642c307862642c30786434312c30786434312c30786434312c30786434312c30786434312c307862642c307862642c307862642c,
  0x20202020307862642c307862642c307862642c307862642c307862642c307862642c307862642c307862642c3078313533632c3078313533632c3078313533632c3078313533632c3078313533632c3078313533632c3078313533632c3078313533632c,
  0x202020203078313533632c3078313533632c3078313533632c3078313533632c3078313533632c3078313533632c3078313533632c3078313533632c3078313533632c3078313533632c3078313533632c3078313533632c307863302c307863302c3078313533632c3078313533632c,
  0x202020203078313533632c3078313533632c3078313533632c3078313533632c3078313533632c3078313533632c3078313533632c3078313533632c3078313533632c3078313533632c3078313533632c3078313533632c3078313533632c3078313533632c3078313533632c3078313533632c,
  0x202020203078313533632c3078313533632c3078313533632c3078313533632c3078313533632c3078313533632c307863302c3078316162652c3078313533632c3078313533632c3078313533632c3078313533632c3078313533632c3078313533632c3078313533632c3078313533632c,
  0x2020202030786436382c30786436382c30786436382c30786436382c30786436382c30786436382c30786436382c30786436382c30786436382c30786436382c30786436382c30786436382c307863332c30786436382c30786436382c30786436382c,
  0x2020202030786436382c30786436382c30786436382c30786436382c30786436382c30786436382c30786436382c30786436382c30786436382c30786436382c30786436382c30786436382c30786436382c30786436382c30786436382c30786436382c,
  0x2020202030786436382c30786436382c30786436382c307863332c30786436382c30786436382c30786436382c30786436382c30786436382c30786436382c30786436382c30786436382c30786436382c30786436382c30786436382c30786436382c,
  0x2020202030786436382c30786436382c30786436382c30786436382c30786436382c30786436382c30786436382c307863332c30786436382c30786436382c307863332c30786436382c30786436382c30786436382c30786436382c30786436382c,
  0x2020202030786436382c30786436382c30786436382c30786436382c30786436382c30786436382c30786436382c30786436382c30786436382c30786436382c307863332c307863332c30786436382c30786436382c30786436382c30786436382c,
  0x2020202030786436382c30786436382c30786436382c30786436382c30786436382c30786436382c30786436382c30786436382c30786436382c30786436382c307863332c307863332c307863332c307863332c307863332c307863332c,
  0x20202020307863332c307863332c307863332c307863332c307863332c307863332c307863332c307863332c307863332c307863332c307863332c307863332c307863332c307863332c307863332c307863332c,
  0x20202020307863332c307863332c307863332c307863332c307863332c307863332c307863332c307863332c307863332c307863332c307863332c307863332c30786436622c30786436622c30786436622c30786436622c,
  0x2020202030786436622c30786436622c30786436622c30786436622c30786436622c30786436622c30786436622c30786436622c30786436622c30786436622c30786436622c30786436622c30786436622c30786436622c30786436622c30786436622c,
  0x2020202030786436622c30786436622c30786436622c30786436622c30786436622c30786436622c30786436622c307863362c307863362c307863362c307863362c307863362c30786461642c30786461642c30786461642c307863392c,
  0x20202020307863392c307863392c307863392c30786461372c30786461372c30786461372c30786461372c30786461372c30786461372c30786461372c30786461372c30786461372c30786461372c30786461372c30786461372c30786461372c,
  0x2020202030786461372c30786461372c30786461372c30786461372c30786461372c30786461372c30786461372c30786461372c30786461372c30786461372c30786461372c30786461372c307863392c307863392c307863392c30786461612c,
  0x2020202030786461612c30786461612c30786461612c30786461612c30786461612c30786461612c30786461612c30786461612c30786437312c30786437312c30786437312c30786437312c30786437312c30786437312c30786437312c30786437312c,
  0x2020202030786437312c30786437312c30786437312c30786437312c30786437312c30786437312c30786437312c30786437312c30786437312c30786437312c30786437312c30786437312c30786437312c30786437312c30786437312c30786437312c,
  0x2020202030786437312c30786437312c30786437312c30786437312c30786437312c30786437312c307863632c30786436652c30786437612c30786437612c30786437612c30786437612c30786437612c30786437612c30786437612c30786437612c,
  0x2020202030786437612c30786437612c30786437612c30786437612c30786437612c30786437612c30786437612c30786437612c30786437612c30786437612c30786437612c30786437612c30786437612c30786437612c30786437612c30786437612c,
  0x2020202030786437612c30786437612c30786437612c30786437612c30786437612c30786437612c307863662c307863662c30786437372c30786437372c30786437372c30786437372c30786437372c30786437372c30786437372c30786437372c,
  0x2020202030786437372c30786437372c307863662c307863662c307863662c307863662c307863662c307863662c3078313837622c3078313837622c3078313837622c3078313837622c3078313837622c3078313837622c3078313837622c3078313837622c,
  0x202020203078313837622c3078313837622c3078313837622c3078313837622c3078313837622c3078313837622c3078313837622c3078313837622c30786437642c30786437642c30786437642c30786437642c30786437642c30786437642c307864322c307864322c,
  0x2020202030786437642c307864322c30786437642c30786437642c30786437642c30786437642c30786437642c30786437642c30786437642c30786437642c30786437642c30786437642c30786437642c30786437642c30786437642c30786437642c,
  0x2020202030786437642c30786437642c30786437642c30786437642c30786437642c30786437642c30786437642c30786437642c30786437642c30786437642c307864322c30786437642c30786437642c307864322c307864322c307864322c,
  0x2020202030786437642c307864322c307864322c30786437642c30786438302c30786438302c30786438302c30786438302c30786438302c30786438302c30786438302c30786438302c30786438302c30786438302c30786438302c30786438302c,
  0x2020202030786438302c30786438302c30786438302c30786438302c30786438302c30786438302c30786438302c30786438302c30786438302c30786438302c30786438302c307864352c307864352c307864352c307864352c307864352c]

/-- UnicodeData/CharPropsData.py:2178-2433 the lines. -/
def charText11 : List Nat :=
 [0x20202020307864352c307864352c307864352c307864352c30786533312c30786533312c30786533312c30786533312c30786533312c30786533312c30786533312c30786533312c30786533312c30786533312c30786533312c3078313533662c,
  0x202020203078313533662c3078313766312c3078313766312c307864622c3078313131392c3078313131392c3078313131392c3078313131392c3078313131392c3078313131392c3078313131392c3078313131392c3078313131392c3078313131392c3078313131392c3078313131392c,
  0x202020203078316163642c30783133322c30783133322c30783133322c30786534332c30786534332c30786534332c30786534332c30786534332c30786534332c30786534332c30786534332c30786534332c30786534332c30786534332c30786534332c,
  0x2020202030786534332c30786534332c30786534332c30786534332c30786534332c30786534332c30786534332c30786534332c30786534332c30786534332c30786534332c30786533612c30786533612c30786534302c30786534302c30786533612c,
  0x20202020307864652c307864652c30786533642c30786533642c3078313134392c3078313134392c3078313134392c3078313134392c307865312c307865312c307865312c307865312c307865312c307865312c307865312c307865312c,
  0x20202020307865312c307865312c307865312c307865312c30786361322c30786361322c30786361322c30786361322c30786361322c30786361322c30786361322c30786361322c30786361322c30786361322c30786361322c30786361322c,
  0x2020202030786361322c30786361322c30786361322c30786361322c3078313033382c3078313033382c3078313033382c3078313033382c3078313033382c3078313033382c3078313033382c3078313534322c3078313534322c3078313534322c3078313534322c3078313534322c,
  0x202020203078313534322c3078313534322c3078313534322c3078313534322c3078313534322c3078313534322c3078313534322c3078313534322c3078313534322c3078313534352c3078313862642c3078313862642c3078313933652c3078313862642c307865342c3078313766342c,
  0x202020203078313337372c3078313138622c30786633632c30786633632c30786535352c30786535322c30786535352c30786535322c30786535322c30786534392c30786534392c30786534392c30786534392c30786534392c30786534392c3078313139342c,
  0x202020203078313139312c3078313139342c3078313139312c3078313138652c3078313138652c3078313138652c3078313433342c3078313433312c307865372c307865372c307865372c307865372c307865372c30786534662c30786534632c30786534632c,
  0x2020202030786534632c30786534392c30786534662c30786534632c30786535382c30786535382c30786535382c30786535382c30786535382c30786535382c30786535382c30786535382c30786535382c30786535382c30786535382c30786535382c,
  0x2020202030786535382c30786535382c30786535382c30786535382c30786535382c30786535382c30786535382c30786535382c30786535382c30786535382c30786535382c307865612c307865612c307865612c307865612c307865612c,
  0x20202020307865612c307865612c307865612c307865612c30786535382c30786535382c30786535382c30786535382c30786535382c30786535382c30786535382c307865612c30786535382c30786535382c30786535382c30786535382c,
  0x2020202030786535382c30786535382c30786535382c307865612c30786535382c30786535382c30786535382c30786535382c30786535382c30786535382c30786535382c307865612c30786535382c30786535382c30786535382c30786535382c,
  0x2020202030786535382c30786535382c30786535382c307865612c30786535652c30786535652c30786535652c30786535652c30786535652c30786535652c30786535652c30786535652c30786535652c30786535652c30786535652c30786535652c,
  0x2020202030786535652c30786535652c30786535652c30786535652c30786535622c30786535622c30786535622c30786535622c30786535622c30786535622c30786535622c30786535622c30786535622c30786535622c307865642c307865642c,
  0x20202020307865642c307865642c307865642c307865642c30786536312c30786536312c30786536312c30786536312c30786536312c30786536312c307866302c3078313433372c307866302c307866302c307866302c307866302c,
  0x20202020307866302c3078313433372c307866302c307866302c30786562382c30786562382c30786562382c30786562382c30786562382c30786562382c30786562382c30786562382c30786562382c30786562382c30786562382c30786562382c,
  0x2020202030786562382c30786562382c30786562382c30786562382c30786536372c30786536372c30786536372c30786536372c30786536372c30786536372c30786536372c30786536372c30786536372c30786536372c30786536372c30786536372c,
  0x2020202030786536372c30786536372c30786536372c307866332c30786536342c30786536342c30786536342c30786536342c30786536342c30786536342c30786536342c30786536342c30786536342c30786536342c30786536342c30786536342c,
  0x2020202030786536342c30786536342c30786536342c30786536342c30786536342c30786536342c30786536342c30786536342c30786536342c30786536342c30786536342c30786536342c30786536342c30786536342c30786536342c30786536342c,
  0x2020202030786536342c30786536342c30786536342c307866332c30786537392c30786536642c30786536642c30786536642c307866362c30786536642c30786536642c307866362c307866362c307866362c307866362c307866362c,
  0x2020202030786536642c30786536642c30786536642c30786536642c30786537392c30786537392c30786537392c30786537392c307866362c30786537392c30786537392c30786537392c307866362c30786537392c30786537392c30786537392c,
  0x2020202030786537392c30786537392c30786537392c30786537392c30786537392c30786537392c30786537392c30786537392c30786537392c30786537392c30786537392c30786537392c30786537392c30786537392c30786537392c30786537392c,
  0x2020202030786537392c30786537392c30786537392c30786537392c3078313935632c3078313935632c307866362c307866362c30786536612c30786536612c30786536612c307866362c307866362c307866362c307866362c30786537302c,
  0x2020202030786537332c30786537332c30786537332c30786537332c30786537332c30786537332c30786537332c30786537332c3078313935392c307866362c307866362c307866362c307866362c307866362c307866362c307866362c,
  0x2020202030786537362c30786537362c30786537362c30786537362c30786537362c30786537362c30786537632c30786537632c30786537332c307866362c307866362c307866362c307866362c307866362c307866362c307866362c,
  0x2020202030786538382c30786538382c30786538382c30786538382c30786538382c30786538382c30786538382c30786538382c30786538382c30786538382c3078313139612c3078313139612c307866392c307866392c307866392c307866392c,
  0x2020202030786538382c30786538382c30786538382c30786538382c30786538382c30786538622c30786538622c30786538622c30786538382c30786538382c30786538622c30786538382c30786538382c30786538382c30786538382c30786538382c,
  0x2020202030786538382c30786538382c30786538382c30786538382c30786538382c30786538382c307866392c307866392c307866392c307866392c307866392c307866392c30786538352c30786538352c30786538352c30786538352c,
  0x2020202030786538352c30786538352c30786538352c30786538352c30786538352c30786538352c3078313139372c307866392c307866392c307866392c30786538322c30786538322c30786539312c30786539312c30786539312c30786539312c,
  0x20202020307866632c307866632c307866632c307866632c30786539312c30786539312c30786539312c30786539312c30786539312c30786539312c30786539312c30786539312c30786538652c30786539312c30786539312c30786539312c,
  0x2020202030786539312c30786539312c307866632c307866632c307866632c307866632c307866632c307866632c307866632c307866632c307866632c307866632c3078313534652c3078313535342c3078313535312c3078313839632c,
  0x202020203078313766372c3078313863302c3078313863302c3078313863302c3078313863302c3078313863302c3078313936322c3078313935662c3078313936352c3078313935662c3078313936352c3078316132352c3078316163312c3078316163312c3078316163312c307866662c,
  0x20202020307866662c307866662c307866662c307866662c307866662c307866662c307866662c307866662c307866662c307866662c307866662c307866662c307866662c307866662c307866662c307866662c,
  0x20202020307866662c307866662c307866662c307866662c307866662c307866662c307866662c307866662c307866662c307866662c307866662c307866662c307866662c307866662c307866662c307866662c,
  0x2020202030786562352c30786562352c30786562352c30786562322c30786562322c30786561392c30786561392c30786562322c30786561662c30786561662c30786561662c30786561662c3078316163342c30783130322c30783130322c30783130322c,
  0x202020203078313331342c3078313331342c3078313331342c3078313331372c3078313331372c3078313331372c3078313330652c3078313330652c3078313331312c3078313330652c30783135362c30783135362c30783135362c30783135362c30783135362c30783135362c,
  0x2020202030786562382c30786562382c30786562382c30786562382c30786562382c30786562382c3078313434332c3078313434332c30783130352c30783130352c30783130352c30783130352c30783130352c30783130352c30783130352c30786562622c,
  0x202020203078313337642c30783130352c30783130352c30783130352c30783130352c30783130352c30783130352c30783130352c30783130352c30783130352c30783130352c30783130352c30783130352c30783130352c30783130352c3078313337612c,
  0x2020202030786337322c30786337322c30786337322c30786337322c30786337322c30786337322c30786337322c30786337322c30786337322c30786337322c30786337322c30786337322c30786337322c30786337322c30786337322c30786337352c,
  0x2020202030786565382c30786564392c30786564332c30786565352c30786565322c30786564632c30786564632c30786565622c30786564362c30786564662c30783130382c30783130382c30783130382c30783130382c30783130382c30783130382c,
  0x2020202030786636662c30786636662c30786635612c30786636662c30786637322c30786637352c30786637352c30786637352c30786637352c30786637352c30786637352c30786637352c30783130652c30783130652c30783130652c30783130652c,
  0x2020202030786636392c30786636392c30786636392c30786636392c30786636392c30786636392c30786636392c30786636392c30786636392c30786636392c30786637622c30786637622c30786636302c30786636362c30786637622c30786637622c,
  0x2020202030786636332c30786636302c30786636302c30786636302c30786636302c30786636302c30786636302c30786636302c30786636302c30786636302c30786636302c30786635642c30786635642c30786635642c30786635642c30786635642c,
  0x2020202030786635642c30786635642c30786635642c30786635642c30786636302c30786636302c30786636302c30786636302c30786636302c30786636302c30786636302c30786636302c30786636302c30783130652c30783130652c30783130652c,
  0x2020202030783131312c30783131312c3078316132622c3078316132382c3078316132622c3078316132622c3078316132622c3078316163612c3078316163372c3078316163612c3078316163372c30783131312c30783131312c30783131312c30783131312c30783131312c,
  0x2020202030783131312c30783131312c30783131312c30783131312c30783131312c30783131312c30783131312c30783131312c30783131312c30783131312c30783131312c30783131312c30783131312c30783131312c30783131312c30783131312c,
  0x2020202030783131312c3078316163612c3078316163372c3078313535642c3078313434632c3078313434632c3078313338302c3078313037342c3078313037342c3078313037342c3078313037342c3078313037342c30786638612c30786638612c30786638612c30786638612c,
  0x2020202030786638612c30786638612c30786638612c30786638612c30786638612c30786638612c30786638612c30786638612c30786638612c30786638612c30786638612c30786638612c30786638612c30786638612c30786638612c30786638612c,
  0x2020202030786638372c30786638372c30786638642c30786638642c30783131342c30783131342c30783131342c30783131342c30783131342c30783131342c30783131342c30783131342c30786639362c30786639362c30786639362c30786639362c,
  0x2020202030786639362c30786639362c30786639362c30786639362c30786639362c30786639362c30786639362c30786639362c30786639362c30786639362c30786639362c30786639362c30786639362c30786639362c30786639362c30786639362c,
  0x2020202030786639362c30786639362c30786639302c30786639302c30786639302c30786639302c3078313161332c3078313161332c30783131372c30783131372c30783131372c30786639332c3078313536332c3078313536332c3078313536332c3078313536332c,
  0x202020203078313536332c3078313536332c3078313536332c3078313536332c3078313536332c3078313536332c3078313536332c3078313536332c3078313536332c3078313536332c3078313536332c3078313536332c3078313536332c3078313536332c3078313536332c3078313536332c,
  0x202020203078313536332c3078313536332c3078313536332c3078313536332c3078313536332c3078313734632c30783131612c30783131612c30783131612c30783131612c30783131612c30783131612c30783131612c30783131612c30783131612c30783131612c,
  0x2020202030783131612c30783131612c30783131612c30783131612c30783131612c30783131612c30783131612c30783131612c30783131612c30783131612c30783131612c30783131612c30783131612c30783131612c30783131612c30783131612c,
  0x2020202030783131612c30783131612c30783131612c30783131612c30783131612c30783131612c30783131612c30783131612c30786639662c30786639662c30786639662c3078313536392c3078313536392c3078313536392c3078313536392c3078313536392c,
  0x202020203078313536392c3078313536392c3078313536392c3078313536392c3078313536392c3078313536392c3078313536392c30783131642c30786639632c30786639632c30786639632c30786639632c3078313536362c30783131642c30783131642c30783131642c,
  0x2020202030783131642c30783131642c30783131642c30783131642c30783131642c30783131642c30783131642c30783131642c30786661322c30786661322c30786661322c30786661322c30786661322c30786661322c30786661322c30786661322c,
  0x2020202030786661322c30786661322c30786661322c30786661322c30786661322c30786661322c30786661322c30786661322c30786661322c30786661322c3078313937342c3078313937342c3078313937342c3078313937342c3078313937342c3078313937342c,
  0x202020203078313937342c30783132302c30783132302c30783132302c30783132302c30783132302c30783132302c30783132302c3078313039622c3078313039622c3078313039622c3078313039622c3078313039382c3078313039382c3078313039382c3078313039382c,
  0x202020203078313039382c3078313039382c3078313039382c3078313039382c3078313038392c3078313038392c3078313038392c3078313038392c3078313038392c3078313038392c3078313038392c3078313038392c3078313039382c3078313039382c3078313038662c3078313038632c,
  0x2020202030783132332c30783132332c30783132332c3078313039652c3078313039652c3078313039322c3078313039322c3078313039322c3078313039352c3078313039352c3078313039352c3078313039352c3078313039352c3078313039352c3078313039352c3078313039352c,
  0x202020203078313039352c3078313039352c30783132332c30783132332c30783132332c3078313039622c3078313039622c3078313039622c3078313061312c3078313061312c3078313061312c3078313061312c3078313061312c3078313061312c3078313061312c3078313061312c,
  0x202020203078313061312c3078313061312c3078313061342c3078313061342c3078313061342c3078313061342c3078313061342c3078313061342c3078313062362c3078313062362c3078313062362c3078313062362c3078313062362c3078313062362c3078313062362c3078313062362c,
  0x202020203078313062362c3078313062362c3078313062392c3078313062392c30783132362c30783132362c30783132362c30783132362c30783132362c30783132362c30783132362c30783132362c30783132362c30783132362c30783132362c30783132362c,
  0x2020202030783132362c30783132362c30783132362c30783132362c30783132362c30783132362c30783132362c30783132362c3078313065302c3078313065302c3078313065302c3078313065302c3078313064612c3078313766642c30783132392c30783132392c,
  0x2020202030783132392c30783132392c30783132392c30783132392c30783132392c30783132392c3078313065362c3078313065362c3078313064642c3078313064642c3078313064642c3078313064642c3078313064642c3078313064642c3078313064642c3078313064642c,
  0x202020203078313064642c3078313064642c30783132392c30783132392c30783132392c30783132392c30783132392c30783132392c3078313130342c3078313130342c3078313130342c3078313130342c3078313130342c3078313130342c3078313130342c3078313066382c,
  0x202020203078313066382c3078313066382c3078313066382c3078313066382c3078313066382c3078313066382c3078313066382c3078313066382c3078313066382c3078313066382c3078313066652c3078313130312c30783132632c30783132632c30783132632c30783132632c,
  0x2020202030783132632c30783132632c30783132632c30783132632c30783132632c30783132632c30783132632c3078313066622c3078313131332c3078313131332c3078313131332c3078313131332c3078313131332c3078313131332c3078313131332c3078313131332c,
  0x202020203078313131332c3078313130372c3078313130372c3078313130372c3078313130372c3078313130372c3078313130372c3078313131302c3078313131302c3078313130372c3078313130372c3078313131302c3078313131302c3078313130372c3078313130372c30783132662c,
  0x2020202030783132662c30783132662c30783132662c30783132662c30783132662c30783132662c30783132662c30783132662c3078313131332c3078313131332c3078313131332c3078313130372c3078313131332c3078313131332c3078313131332c3078313131332c,
  0x202020203078313131332c3078313131332c3078313131332c3078313131332c3078313130372c3078313131302c30783132662c30783132662c3078313130642c3078313130642c3078313130642c3078313130642c3078313130642c3078313130642c3078313130642c3078313130642c,
  0x202020203078313130642c3078313130642c30783132662c30783132662c3078313130612c3078313131362c3078313131362c3078313131362c3078313537352c30783133322c30783133322c30783133322c30783133322c30783133322c30783133322c30783133322c,
  0x2020202030783133322c30783133322c30783133322c30783133322c30783133322c30783133322c30783133322c30783133322c30783133322c30783133322c30783133322c30783133322c30783133322c30783133322c30783133322c30783133322c,
  0x2020202030783133322c30783133322c30783133322c30783133322c30783133322c30783133322c30783133322c30783133322c3078313131632c3078313131632c3078313131632c3078313131632c3078313131632c3078313131632c3078313131632c3078313131632c,
  0x202020203078313131632c3078313131632c3078313131632c3078313131632c3078313131632c3078313131632c3078313131632c3078313131632c3078313131632c3078313131632c3078313131632c3078313131632c3078313131632c3078313131632c3078313131632c3078313131632c,
  0x202020203078313131632c3078313131632c3078313131632c3078313131632c3078313131632c3078313131662c30783133352c30783133352c3078313132322c3078313132322c3078313132322c3078313132322c3078313132322c3078313132322c3078313132322c3078313132322c,
  0x202020203078313132322c3078313132322c3078313132322c3078313132322c3078313132322c3078313132322c3078313132322c3078313132322c3078313132322c3078313132322c3078313132322c3078313132322c3078313132322c3078313132322c3078313132322c3078313132322c,
  0x202020203078313132322c3078313132322c3078313132322c3078313132322c3078313132322c30783133382c30783133382c30783133382c3078313132352c3078313132352c3078313132352c3078313132352c3078313132352c3078313132352c3078313132352c3078313132352c,
  0x202020203078313132352c3078313132352c3078313132352c3078313132352c3078313132352c3078313132352c3078313132352c3078313132352c3078313132352c30783133622c30783133622c30783133622c30783133622c30783133622c30783133622c30783133622c,
  0x2020202030783133622c30783133622c30783133622c30783133622c30783133622c30783133622c30783133622c30783133622c3078313132622c3078313132622c3078313132622c3078313132622c3078313132622c3078313132622c3078313132622c3078313132622c,
  0x202020203078313132622c3078313132622c3078313132622c3078313132622c3078313132622c3078313132622c3078313132622c3078313132622c3078313132622c3078313132622c3078313132622c3078313132622c3078313132622c3078313132622c3078313132622c3078313132622c,
  0x202020203078313132622c3078313132622c30783133652c30783133652c30783133652c30783133652c30783133652c3078313132382c3078313132652c3078313132652c3078313132652c3078313132652c3078313132652c3078313132652c3078313132652c3078313132652c,
  0x202020203078313132652c3078313132652c3078313132652c3078313132652c30783134312c30783134312c30783134312c30783134312c3078313133312c3078313133312c3078313133312c3078313133312c3078313133312c3078313133312c3078313133312c3078313133312c,
  0x202020203078313133312c3078313133312c3078313133312c3078313133312c3078313133312c3078313133312c3078313133312c3078313133312c3078313133312c3078313133312c3078313133312c3078313133312c30783134342c30783134342c30783134342c30783134342c,
  0x2020202030783134342c30783134342c30783134342c30783134342c30783134342c30783134342c30783134342c30783134342c3078313161392c3078313161392c3078313161392c3078313161392c3078313162322c3078313161392c3078313161392c3078313161392c,
  0x202020203078313162322c3078313161392c3078313161392c3078313161392c3078313161392c3078313161362c30783134372c30783134372c3078313161662c3078313161662c3078313161662c3078313161662c3078313161662c3078313161662c3078313161662c3078313162352c,
  0x202020203078313161662c3078313162352c3078313161662c3078313161662c3078313161662c3078313162352c3078313162352c30783134372c3078313162382c3078313162382c3078313162382c3078313162382c3078313162382c3078313162382c3078313162382c3078313162382c,
  0x202020203078313162382c3078313162382c3078313162382c3078313162382c3078313162382c3078313162382c3078313162382c3078313162382c3078313162382c3078313162382c3078313162382c3078313162382c3078313162382c3078313162382c30783134612c30783134612c,
  0x2020202030783134612c30783134612c30783134612c30783134612c30783134612c30783134612c30783134612c30783134612c3078313164332c3078313164332c3078313164332c3078313164332c3078313164332c3078313164332c3078313164332c3078313164332c,
  0x202020203078313164332c3078313164332c3078313164332c3078313164332c3078313164332c3078313164332c3078313164332c3078313164332c3078313164332c3078313164332c3078313164332c3078313164332c3078313164332c3078313164302c3078313162622c3078313164302c,
  0x202020203078313162622c3078313162622c3078313162622c3078313162622c3078313162622c3078313162622c3078313162622c30783134642c3078313163342c3078313163642c3078313162622c3078313163642c3078313163642c3078313162622c3078313162622c3078313162622c,
  0x202020203078313162622c3078313162622c3078313162622c3078313162622c3078313162622c3078313164302c3078313164302c3078313164302c3078313164302c3078313164302c3078313164302c3078313162622c3078313162622c3078313163312c3078313163312c3078313163312c,
  0x202020203078313163312c3078313163312c3078313163312c3078313163312c3078313163312c30783134642c30783134642c3078313162652c3078313163612c3078313163612c3078313163612c3078313163612c3078313163612c3078313163612c3078313163612c3078313163612c,
  0x202020203078313163612c3078313163612c30783134642c30783134642c30783134642c30783134642c30783134642c30783134642c3078313163612c3078313163612c3078313163612c3078313163612c3078313163612c3078313163612c3078313163612c3078313163612c,
  0x202020203078313163612c3078313163612c30783134642c30783134642c30783134642c30783134642c30783134642c30783134642c3078313163372c3078313163372c3078313163372c3078313163372c3078313163372c3078313163372c3078313163372c3078313164362c,
  0x202020203078313164392c3078313164392c3078313164392c3078313164392c3078313163372c3078313163372c30783134642c30783134642c3078313563302c3078313563302c3078313563302c3078313563302c3078313563302c3078313563302c3078313563302c3078313563302c,
  0x202020203078313563302c3078313563302c3078313563302c3078313563302c3078313563302c3078313563302c3078313562642c3078316164662c3078313332392c3078313330322c3078313332302c3078313332302c3078313332302c3078313332302c3078313332302c3078313332302c,
  0x202020203078313332302c3078313330382c3078313330352c3078313266632c3078313266632c3078313332362c3078313266632c3078313266632c3078313266632c3078313266632c3078313330622c3078313465622c3078313466312c3078313465652c3078313465652c3078313933622c,
  0x202020203078313731362c3078313731362c3078316161632c30783135302c30783135302c30783135302c30783135302c30783135302c3078313165652c3078313165652c3078313165652c3078313165652c3078313165652c3078313165652c3078313165652c3078313165652c,
  0x202020203078313165652c3078313165652c3078313165652c3078313165652c3078313165652c3078313165652c3078313165652c3078313165652c3078313165352c3078313165352c3078313165382c3078313166312c3078313165622c3078313165622c3078313165622c3078313166312c,
  0x2020202030783135332c30783135332c30783135332c30783135332c30783135332c30783135332c30783135332c30783135332c3078313265612c3078313265612c3078313265612c3078313265612c3078313265612c3078313265612c3078313265612c3078313265612c,
  0x202020203078313265612c3078313265612c3078313265612c3078313265612c3078313265612c3078313265612c3078313265612c3078313265612c3078313265612c3078313265612c3078313265612c3078313265612c3078313265612c3078313265612c3078313265612c3078313265612c,
  0x202020203078313265612c3078313265612c3078313265612c3078313265612c3078313265612c30783135392c30783135392c30783135392c3078313230662c3078313230332c3078313230332c3078313230332c3078313230332c3078313230332c3078313230332c3078313230362c,
  0x202020203078313231352c3078313231352c3078313230332c3078313230332c3078313230332c3078313230332c30783135632c3078313331612c3078313230392c3078313230392c3078313230392c3078313230392c3078313230392c3078313230392c3078313230392c3078313230392c,
  0x202020203078313230392c3078313230392c30783135632c30783135632c30783135632c30783135632c3078313230332c3078313230332c3078313233332c3078313232372c3078313233332c30783135662c30783135662c30783135662c30783135662c30783135662c,
  0x2020202030783135662c30783135662c30783135662c30783135662c30783135662c30783135662c30783135662c30783135662c30783135662c30783135662c30783135662c30783135662c30783135662c30783135662c30783135662c30783135662c,
  0x2020202030783135662c30783135662c30783135662c3078313233302c3078313233302c3078313233362c3078313232612c3078313232642c3078313234622c3078313234622c3078313234622c3078313234352c3078313234352c3078313233632c3078313234352c3078313234352c,
  0x202020203078313233632c3078313234352c3078313234352c3078313234652c3078313234382c3078313233662c30783136322c30783136322c3078313234322c3078313234322c3078313234322c3078313234322c3078313234322c3078313234322c3078313234322c3078313234322c,
  0x202020203078313234322c3078313234322c30783136322c30783136322c30783136322c30783136322c30783136322c30783136322c3078313235342c3078313235342c3078313235342c3078313235342c3078313235342c3078313235342c3078313235342c30783136352c,
  0x2020202030783136352c30783136352c30783136352c3078313235312c3078313235312c3078313235312c3078313235312c3078313235312c3078313235312c3078313235312c3078313235312c3078313235312c3078313235312c3078313235312c3078313235312c3078313235312c,
  0x202020203078313235312c3078313235312c3078313235312c3078313235312c3078313235312c3078313235312c3078313235312c3078313235312c3078313235312c3078313235312c3078313235312c3078313235312c3078313235312c3078313235312c3078313235312c3078313235312c,
  0x2020202030783136352c30783136352c30783136352c30783136352c3078313235642c3078313235642c3078313235642c3078313235642c3078313235642c3078313235642c3078313235642c3078313235642c3078313235642c3078313235642c3078313235642c3078313235642c,
  0x202020203078313235642c3078313235642c3078313235642c3078313235642c3078313235642c3078313235642c3078313235642c3078313235642c3078313235642c3078313235642c30783136382c3078313235612c3078313235372c3078313235372c3078313235372c3078313235372c,
  0x202020203078313235372c3078313235372c3078313235372c3078313235372c3078313236632c3078313236632c3078313236632c3078313236632c3078313236632c3078313236632c3078313236632c3078313236632c3078313236632c3078313236632c3078313236632c3078313236632c,
  0x202020203078313236632c3078313236632c3078313236632c3078313236632c3078313236632c3078313236632c3078313236632c3078313236632c3078313236632c3078313236632c30783136622c30783136622c30783136622c3078313236362c3078313236392c3078313236392c,
  0x202020203078313236392c3078313236392c3078313236392c3078313236392c3078313237322c3078313237322c3078313237322c3078313237322c3078313237322c3078313237322c3078313237322c3078313237322c3078313237322c3078313237322c3078313237322c3078313237322c,
  0x202020203078313237322c3078313237322c3078313237322c3078313237322c3078313237322c3078313237322c3078313237322c3078313237322c3078313237322c3078313237322c30783136652c30783136652c3078313236662c3078313236662c3078313236662c3078313236662c,
  0x202020203078313236662c3078313236662c3078313236662c3078313236662c3078313237382c3078313237382c3078313237382c3078313237382c3078313237382c3078313237382c3078313237382c3078313237382c3078313237382c3078313237382c3078313237382c3078313237382c,
  0x202020203078313237382c3078313237382c3078313237382c3078313237382c3078313237382c3078313237382c3078313237382c30783137312c30783137312c30783137312c30783137312c30783137312c3078313237352c3078313237352c3078313237352c3078313237352c,
  0x202020203078313237352c3078313237352c3078313237352c3078313237352c3078313237652c3078313237652c3078313237652c3078313237652c3078313237652c3078313237652c3078313237652c3078313237652c3078313237652c3078313237652c3078313237652c3078313237652c,
  0x202020203078313237652c3078313237652c3078313237652c3078313237652c3078313237652c3078313237652c3078313237652c3078313237652c3078313237652c3078313237652c3078313237652c3078313237652c3078313237652c3078313237652c3078313237652c3078313237652c,
  0x202020203078313237652c3078313237652c3078313237652c30783137372c3078313239392c3078313239392c30783137612c30783137612c30783137612c30783137612c30783137612c30783137612c30783137612c30783137612c30783137612c30783137612c,
  0x2020202030783137612c3078313937642c30783137612c30783137612c3078313463612c3078313463612c3078313463612c3078313463612c3078313463612c3078313463612c3078313463612c3078313463612c3078313463612c3078313463612c3078313463612c3078313463612c,
  0x202020203078313463612c3078313463612c3078313463612c3078313463612c3078313239662c3078313239662c3078313239662c3078313239662c3078313239662c3078313239662c3078313239662c3078313239662c3078313239662c3078313239662c3078313239662c3078313239662c,
  0x202020203078313239662c3078313239662c3078313239662c30783137642c3078316134662c3078316134662c3078316134662c3078316134662c3078316134662c3078316134662c3078316134662c3078316135322c3078316134632c30783237392c30783237392c30783237392c,
  0x2020202030783237392c30783237392c30783237392c30783237392c3078313837652c3078313837652c3078313837652c3078313837652c3078313837652c3078313837652c3078313837652c3078313837652c3078313837652c3078313837652c3078313837652c3078313837652c,
  0x202020203078313837652c3078316164302c30783138302c30783138302c30783138302c30783138302c30783138302c30783138302c30783138302c30783138302c30783138302c30783138302c30783138302c30783138302c30783138302c30783138302c,
  0x2020202030783138302c30783138302c30783138302c30783138302c30783138302c30783138302c30783138302c30783138302c30783138302c30783138302c30783138302c30783138302c30783138302c30783138302c30783138302c30783138302c,
  0x2020202030783138302c30783138302c30783138302c30783138302c30783138302c30783138302c3078313338632c3078313338632c3078313338632c3078313338632c3078313338632c3078313338632c3078313338632c3078313338632c3078313338632c3078313338632c,
  0x202020203078313338632c3078313338632c3078313338632c3078313338632c3078313338632c3078313338632c3078313338632c3078313338632c3078313338632c3078313338632c3078313338632c3078313338632c3078313338632c3078313338632c3078313338632c3078313338632c,
  0x202020203078313266362c3078313366352c3078313366322c30783138332c30783138332c30783138332c30783138332c30783138332c30783138332c30783138332c30783138332c30783138332c30783138332c30783138332c30783138332c30783138332c,
  0x202020203078313266302c3078313266302c3078313266302c3078313266302c3078313266302c3078313266302c3078313266302c3078313266302c3078313266302c3078313266302c3078313266332c3078313266302c3078313266302c3078313266302c3078313266302c3078313266302c,
  0x202020203078313266302c3078313266302c3078313266302c3078313266302c3078313266302c3078313266302c3078313266302c3078313266302c3078313266302c3078313266302c3078313266302c3078313266332c3078313266302c3078313266302c3078313366352c3078313366352c,
  0x202020203078313366352c3078313366352c3078313366352c3078313366322c3078313366352c3078313366352c3078313366352c3078313838312c30783138332c30783138332c30783138332c30783138332c3078313265642c3078313265642c3078313265642c3078313265642c,
  0x202020203078313265642c3078313265642c3078313265642c3078313265642c3078313265642c30783138332c30783138332c30783138332c30783138332c30783138332c30783138332c30783138332c3078313431392c3078313431392c30783138332c30783138332c,
  0x2020202030783138332c30783138332c30783138332c30783138332c30783138332c30783138332c30783138332c30783138332c30783138332c30783138332c30783138332c30783138332c3078313932302c3078313932302c3078313932302c3078313932302c,
  0x202020203078313932302c3078313932302c30783138332c30783138332c30783138332c30783138332c30783138332c30783138332c30783138332c30783138332c30783138332c30783138332c30783138332c30783138332c30783138332c30783138332c,
  0x2020202030783138332c30783138332c30783138332c30783138332c30783138332c30783138332c30783138332c30783138332c30783138332c30783138332c30783138332c30783138332c30783138332c30783138332c30783138332c30783138332c,
  0x2020202030783138332c30783138332c30783138332c30783138332c3078313339352c3078313339352c3078313339352c3078313339352c3078313339352c3078313339352c3078313339352c3078313339352c3078313339352c3078313339352c3078313339352c3078313339352c,
  0x202020203078313339352c3078313339352c3078313339352c3078313339352c3078313339352c3078313339352c3078313339352c3078313339352c3078313339352c3078313339352c3078313339352c3078313339352c3078313339352c3078313338662c3078313338662c3078313338662c,
  0x2020202030783138362c30783138362c3078313339322c30783138362c3078313361372c3078313361372c3078313361372c3078313361372c3078313361372c3078313361372c3078313339382c3078313361312c3078313339622c3078313339622c3078313361312c3078313361312c,
  0x202020203078313361312c3078313339622c3078313361312c3078313339622c3078313339622c3078313339622c3078313361342c3078313361342c30783138392c30783138392c30783138392c30783138392c30783138392c30783138392c30783138392c30783138392c,
  0x202020203078313339652c3078313339652c3078313339652c3078313339652c30783138632c3078313361612c3078313361612c3078313361612c3078313361612c3078313361612c3078313361612c30783138632c30783138632c3078313361612c3078313361612c3078313361612c,
  0x202020203078313361612c3078313361612c3078313361612c30783138632c30783138632c3078313361612c3078313361612c3078313361612c3078313361612c3078313361612c3078313361612c30783138632c30783138632c30783138632c30783138632c30783138632c,
  0x2020202030783138632c30783138632c30783138632c30783138632c3078313361612c3078313361612c3078313361612c3078313361612c3078313361612c3078313361612c3078313361612c30783138632c3078313361612c3078313361612c3078313361612c3078313361612c,
  0x202020203078313361612c3078313361612c3078313361612c30783138632c3078313631642c3078313631642c3078313631642c3078313631642c3078313631642c3078313631642c3078313631642c3078313631642c3078313631642c3078313631642c3078313631642c3078313631642c,
  0x202020203078313631642c3078313631642c3078313631642c3078313631642c3078313361642c3078313361642c3078313361642c3078313361642c3078313361642c3078313361642c3078313362302c3078313363322c3078313363322c3078313362362c3078313362362c3078313362362c,
  0x202020203078313362362c3078313362362c30783138662c30783138662c30783138662c30783138662c3078313362332c3078313362332c3078313362332c3078313362332c3078313362332c3078313362332c3078313362332c3078313362332c3078313362332c3078313362332c,
  0x202020203078313362332c3078313362332c3078313362332c3078313362332c3078313362332c3078313362332c3078313362392c3078313362392c3078313362392c3078313362392c3078313362392c3078313362392c3078313362392c3078313362392c3078313362392c3078313362392c,
  0x2020202030783138662c30783138662c30783138662c30783138662c30783138662c30783138662c30783138662c30783138662c30783138662c30783138662c30783138662c30783138662c30783138662c30783138662c30783138662c3078313538342c,
  0x202020203078313363352c3078313363352c3078313363352c3078313363352c3078313363352c3078313363352c3078313363352c3078313363352c3078313363352c3078313363352c3078313363352c3078313363352c3078313363352c3078313363352c3078313363352c3078313363352c,
  0x202020203078313363352c3078313363352c3078313363352c3078313363352c3078313363352c3078313363352c3078313363352c3078313363352c3078313363352c30783139322c30783139322c30783139322c30783139322c30783139322c30783139322c30783139322c,
  0x202020203078313363382c3078313363382c3078313363382c3078313363382c3078313363382c3078313363382c3078313363382c3078313363382c3078313363382c3078313363382c3078313363382c3078313363382c3078313363382c3078313363382c3078313363382c30783139352c,
  0x2020202030783139352c3078313363382c3078313363382c3078313363382c3078313363382c3078313363382c3078313363382c3078313363382c3078313363382c3078313363382c3078313363382c3078313363382c3078313363382c3078313363382c3078313363382c3078313538372c,
  0x2020202030783139352c3078313363382c3078313363382c3078313363382c3078313363382c3078313363382c3078313363382c3078313363382c3078313363382c3078313363382c3078313363382c3078313363382c3078313363382c3078313363382c3078313363382c3078313366652c,
  0x2020202030783139352c3078313363382c3078313363382c3078313363382c3078313363382c3078313363382c3078313363382c3078313363382c3078313363382c3078313363382c3078313363382c3078313363382c3078313363382c3078313363382c3078313363382c3078313363382c,
  0x202020203078313538372c3078313538372c3078313538372c3078313538372c3078313538372c3078313538372c3078313538372c3078313538372c3078313538372c3078313538372c3078313538372c3078313538372c3078313538372c3078313538372c3078313538372c3078313538372c,
  0x202020203078313538372c3078313538372c3078313538372c3078313538372c3078313538372c3078313538372c30783139352c30783139352c30783139352c30783139352c30783139352c30783139352c30783139352c30783139352c30783139352c30783139352c,
  0x202020203078313431332c3078313431302c3078313431302c3078313431302c3078313431302c3078313431302c3078313539632c3078313539632c3078313539632c3078313539632c3078313539632c3078313539662c3078313730642c3078313539662c3078313539662c3078313539662c,
  0x202020203078313764392c3078313838612c3078313838612c3078313863332c3078313863332c3078316138652c3078316233392c3078316233392c30783139382c30783139382c30783139382c30783139382c30783139382c30783139382c30783139382c30783139382c,
  0x202020203078313539662c3078313539662c3078313539662c3078313539662c3078313539662c3078313539662c3078313539632c3078313539632c3078313539632c3078313539662c3078313539632c3078313730612c3078313730612c30783139382c30783139382c30783139382c,
  0x202020203078313539662c3078313539632c3078313539632c3078313539662c3078313838612c3078313838612c3078313838612c3078313932362c3078313932362c3078316130372c3078316138652c3078316233392c3078316233392c30783139382c30783139382c30783139382c,
  0x202020203078313363622c3078313363622c3078313363622c3078313363622c3078313363622c3078313363622c3078313363622c3078313363622c3078313363622c3078313363622c3078313363622c3078313363622c3078313363622c3078313363622c3078313363622c3078313363622c,
  0x202020203078313363622c3078313363622c3078313363622c3078313363622c30783139622c30783139622c30783139622c30783139622c30783139622c30783139622c30783139622c30783139622c30783139622c30783139622c30783139622c30783139622c,
  0x202020203078313436372c3078313561352c3078313436372c3078313436372c3078313436372c3078313436372c3078313436372c3078313436372c3078313436372c3078313436372c3078313436372c3078313436372c3078313436372c3078313561352c3078313561352c3078313561352c,
  0x202020203078313561352c3078313561352c3078313561352c3078313735652c3078313735652c30783139652c3078313830392c3078313830392c3078313830392c3078313830392c3078313830392c3078313830392c3078313830392c3078313830392c3078316164332c3078316164332c,
  0x202020203078316164332c3078316164332c3078316164332c3078316164332c3078316164332c3078316164332c3078316164332c3078316164332c30783139652c30783139652c30783139652c30783139652c30783139652c30783139652c30783139652c30783139652c,
  0x2020202030783139652c30783139652c30783139652c3078313938332c3078313830362c3078313830362c3078313830362c3078313830362c3078313830362c3078313830362c3078313830362c3078313830362c3078313830362c3078313830362c3078313830362c3078313830362c,
  0x202020203078313436642c3078313436642c3078313436642c3078313436642c30783161312c3078313436642c3078313436642c3078313436642c3078313436642c3078313436642c3078313436642c3078313436642c3078313436642c3078313436642c3078313436642c3078313436642c,
  0x202020203078313436642c3078313436642c3078313436642c3078313436642c3078313436642c3078313436642c3078313436642c3078313436642c3078313436642c3078313436642c3078313436642c3078313436642c3078313436642c3078313436642c3078313436642c3078313436642c,
  0x2020202030783161312c3078313436642c3078313436642c30783161312c3078313436642c30783161312c30783161312c3078313436642c30783161312c3078313436642c3078313436642c3078313436642c3078313436642c3078313436642c3078313436642c3078313436642c,
  0x202020203078313436642c3078313436642c3078313436642c30783161312c3078313436642c3078313436642c3078313436642c3078313436642c30783161312c3078313436642c30783161312c3078313436642c30783161312c30783161312c30783161312c30783161312c,
  0x2020202030783161312c30783161312c3078313436642c30783161312c30783161312c30783161312c30783161312c3078313436642c30783161312c3078313436642c30783161312c3078313436642c30783161312c3078313436642c3078313436642c3078313436642c,
  0x2020202030783161312c3078313436642c3078313436642c30783161312c3078313436642c30783161312c30783161312c3078313436642c30783161312c3078313436642c30783161312c3078313436642c30783161312c3078313436642c30783161312c3078313436642c,
  0x2020202030783161312c3078313436642c3078313436642c30783161312c3078313436642c30783161312c30783161312c3078313436642c3078313436642c3078313436642c3078313436642c30783161312c3078313436642c3078313436642c3078313436642c3078313436642c,
  0x202020203078313436642c3078313436642c3078313436642c30783161312c3078313436642c3078313436642c3078313436642c3078313436642c30783161312c3078313436642c3078313436642c3078313436642c3078313436642c30783161312c3078313436642c30783161312c,
  0x202020203078313436642c3078313436642c3078313436642c3078313436642c3078313436642c3078313436642c3078313436642c3078313436642c3078313436642c3078313436642c30783161312c3078313436642c3078313436642c3078313436642c3078313436642c3078313436642c,
  0x202020203078313436642c3078313436642c3078313436642c3078313436642c3078313436642c3078313436642c3078313436642c3078313436642c3078313436642c3078313436642c3078313436642c3078313436642c30783161312c30783161312c30783161312c30783161312c,
  0x2020202030783161312c3078313436642c3078313436642c3078313436642c30783161312c3078313436642c3078313436642c3078313436642c3078313436642c3078313436642c30783161312c3078313436642c3078313436642c3078313436642c3078313436642c3078313436642c,
  0x202020203078313436642c3078313436642c3078313436642c3078313436642c3078313436642c3078313436642c3078313436642c3078313436642c3078313436642c3078313436642c3078313436642c3078313436642c30783161312c30783161312c30783161312c30783161312c,
  0x2020202030783161312c30783161312c30783161312c30783161312c30783161312c30783161312c30783161312c30783161312c30783161312c30783161312c30783161312c30783161312c30783161312c30783161312c30783161312c30783161312c,
  0x2020202030783161312c30783161312c30783161312c30783161312c30783161312c30783161312c30783161312c30783161312c30783161312c30783161312c30783161312c30783161312c3078313436612c3078313436612c30783161312c30783161312c,
  0x2020202030783161312c30783161312c30783161312c30783161312c30783161312c30783161312c30783161312c30783161312c30783161312c30783161312c30783161312c30783161312c3078313438322c3078313438322c3078313438322c3078313438322c,
  0x202020203078313438322c3078313438322c3078313438322c3078313437302c3078313437302c3078313437302c3078313437302c3078313437302c3078313437662c3078313437302c3078313437332c3078313437332c3078313437302c3078313437302c3078313437302c3078313437362c,
  0x202020203078313437362c30783161342c3078313437632c3078313437632c3078313437632c3078313437632c3078313437632c3078313437632c3078313437632c3078313437632c3078313437632c3078313437632c3078313437392c3078313438352c3078313438352c3078313438352c,
  0x202020203078313938392c3078313938362c3078313938362c3078316164362c30783161342c30783161342c30783161342c30783161342c30783161342c30783161342c30783161342c30783161342c3078313632662c3078313632662c3078313632662c3078313632662c,
  0x202020203078313632662c3078313632662c3078313632662c3078313632662c3078313632662c3078313632662c3078313632662c3078313632662c3078313632662c3078313632662c3078313632662c3078313632662c3078313439312c3078313439312c3078313439312c3078313439312c,
  0x202020203078313439312c3078313439312c3078313439312c3078313439312c3078313439312c3078313439312c3078313439312c3078313438652c3078313438382c3078313438382c3078313438652c3078313438652c3078313439372c3078313439372c3078313439312c3078313439342c,
  0x202020203078313439342c3078313438652c3078313438622c30783161372c30783161372c30783161372c30783161372c30783161372c30783161372c30783161372c30783161372c30783161372c3078313439612c3078313439612c3078313439612c3078313439612c,
  0x202020203078313439612c3078313439612c3078313439612c3078313439612c3078313439612c3078313439612c3078313439612c3078313439612c3078313439612c3078313439612c3078313439612c3078313439612c3078313439612c3078313439612c3078313439612c3078313439612c,
  0x202020203078313439612c3078313439612c3078313439612c3078313439612c30783161612c30783161612c30783161612c30783161612c3078313736312c3078313736312c3078313439612c3078313439612c3078313736312c3078313736312c3078313736312c3078313736312c,
  0x202020203078313736312c3078313736312c3078313736312c3078313736312c3078313736312c3078313736312c3078313736312c3078313736312c3078313736312c3078313736312c3078313736312c3078313736312c30783161612c30783161612c3078313736312c3078313736312c,
  0x202020203078313736312c3078313736312c3078313736312c3078313736312c3078313736312c3078313736312c3078313736312c3078313736312c3078313736312c3078313736312c3078313736312c3078313736312c3078313461362c3078313461362c3078313461362c3078313461362c,
  0x202020203078313461362c3078316133372c3078316133372c3078316133372c3078316133372c3078316133372c3078316133372c30783161642c30783161642c30783161642c30783161642c3078316133312c3078313461362c3078313461332c3078313461332c3078313461332c,
  0x202020203078313461332c3078313461332c3078313461332c3078313461332c3078313461332c3078313461332c3078313461332c3078313461332c3078313461332c3078313461332c3078313461332c3078313461332c3078316133342c3078316133342c3078316133342c3078316133342c,
  0x202020203078316133342c3078316133342c3078316133342c3078316133342c30783161642c30783161642c30783161642c30783161642c30783161642c30783161642c30783161642c3078313461302c3078313461302c3078313461302c3078313461302c3078313461392c,
  0x202020203078313461392c3078313461392c3078313461392c3078313461392c3078313461392c3078313461392c3078313461392c3078313461392c3078313461392c3078313461392c3078313461392c3078313461392c3078313463612c3078313463612c3078313463612c3078313463612c,
  0x202020203078313463612c3078313463612c3078313463612c3078313463612c3078313463612c30783162302c30783162302c30783162302c30783162302c30783162302c30783162302c30783162302c3078313463372c3078313463372c3078313463372c3078313463372c,
  0x202020203078313463372c3078313463372c3078313463372c3078313463372c3078313463372c3078313463372c30783162302c30783162302c30783162302c30783162302c30783162302c30783162302c3078313463642c3078313463642c3078313463642c3078313463642c,
  0x202020203078313463642c3078313463642c3078313463642c3078313463642c30783162332c30783162332c30783162332c30783162332c30783162332c30783162332c30783162332c30783162332c3078313332332c3078313332302c3078313332332c3078313266662c,
  0x202020203078313332302c3078313332362c3078313332362c3078313332392c3078313332362c3078313332392c3078313332632c3078313332302c3078313332392c3078313332392c3078313332302c3078313332302c3078313464662c3078313464662c3078313464662c3078313464662c,
  0x202020203078313464662c3078313464662c3078313464662c3078313464662c3078313464662c3078313464662c3078313464662c3078313464302c3078313464392c3078313464302c3078313464392c3078313464392c3078313464302c3078313464302c3078313464302c3078313464302c,
  0x202020203078313464302c3078313464302c3078313464632c3078313464332c3078316133612c30783162362c30783162362c30783162362c30783162362c30783162362c30783162362c30783162362c3078313562312c3078313562312c3078313562312c3078313562312c,
  0x202020203078313562312c3078313562312c3078313562312c3078313562312c3078313562312c3078313562312c3078313562312c3078313562312c3078313562312c3078313562312c30783162392c30783162392c3078313561652c3078313561652c3078313561652c3078313561652c,
  0x202020203078313561652c3078313562342c30783162392c30783162392c30783162392c30783162392c30783162392c30783162392c30783162392c30783162392c30783162392c30783162392c3078313731392c3078313731302c3078313731302c3078313731302c,
  0x202020203078313731302c3078313731302c3078313731302c3078313731302c3078313731302c3078313731302c3078313731302c3078313731302c3078313731302c3078313731302c3078313731302c3078313731302c3078313731302c3078313731302c3078313731302c3078313731302c,
  0x202020203078313731302c3078313731302c3078313731302c3078313731302c3078313731302c3078313731302c3078313731302c3078313731302c30783162662c30783162662c30783162662c30783162662c3078316164662c30783163322c30783163322c30783163322c,
  0x2020202030783163322c30783163322c30783163322c30783163322c30783163322c30783163322c30783163322c30783163322c30783163322c30783163322c30783163322c30783163322c30783163322c30783163322c30783163322c30783163322c,
  0x2020202030783163322c30783163322c30783163322c30783163322c30783163322c30783163322c30783163322c30783163322c30783163322c30783163322c30783163322c30783163322c30783163322c30783163322c30783163322c30783163322c,
  0x202020203078313563632c3078313563632c3078313563632c3078313563632c3078313563632c3078313563632c3078313563632c3078313563632c3078313563632c3078313563632c3078313563632c30783163352c30783163352c30783163352c30783163352c30783163352c,
  0x202020203078313563632c3078313563632c3078313563632c3078313563632c3078313563632c3078313563632c3078313563632c3078313563632c3078313563632c3078313563632c3078313563632c3078313563632c3078313563632c30783163352c30783163352c30783163352c,
  0x2020202030783163352c30783163352c30783163352c30783163352c3078313563632c3078313563632c3078313563632c3078313563632c3078313563632c3078313563632c3078313563632c3078313563632c3078313563632c3078313563632c30783163352c30783163352c,
  0x202020203078313563392c3078313563332c3078313563362c3078313563662c3078313564322c3078313564322c3078313564322c3078313564322c3078313564322c3078313564322c3078313564322c3078313564322c30783163382c30783163382c30783163382c30783163382c,
  0x2020202030783163382c30783163382c30783163382c30783163382c3078313562612c3078313562612c3078313562612c3078313562612c3078313562612c3078313562612c3078313562612c3078313562612c3078313562612c3078313562612c3078313562612c3078313562612c,
  0x202020203078313562612c3078313562612c3078313562612c3078313562612c3078313564352c3078313564352c3078313564352c3078313564352c3078313564352c3078313564352c3078313564352c3078313564352c3078313564352c3078313564352c3078313564352c3078313564352c,
  0x202020203078313564352c3078313564352c3078313564352c3078313564352c3078313564352c3078313564352c3078313564352c3078313564352c3078313564352c3078313938632c3078313938632c3078313938632c3078313938632c30783163622c30783163622c30783163622c,
  0x2020202030783163622c30783163622c30783163622c30783163622c3078316139312c3078316139312c3078316139312c3078316139312c3078316139312c3078316139312c3078316139312c3078316139312c3078316139312c3078316139312c3078316139312c3078316139312c,
  0x2020202030783163622c30783163622c30783163622c30783163622c30783163622c30783163622c30783163622c30783163622c30783163622c30783163622c30783163622c30783163622c30783163622c30783163622c30783163622c30783163622c,
  0x2020202030783163622c30783163622c30783163622c30783163622c3078313737362c3078313731632c3078313564652c3078313732322c30783163652c3078313565372c3078313565372c3078313565372c3078313565372c3078313565372c3078313565372c3078313565372c,
  0x202020203078313565372c30783163652c30783163652c3078313565372c3078313565372c30783163652c30783163652c3078313565372c3078313565372c3078313565372c3078313565372c3078313565372c3078313565372c3078313565372c3078313565372c3078313565372c,
  0x202020203078313565372c3078313565372c3078313565372c3078313565372c3078313565372c30783163652c3078313565372c3078313565372c3078313565372c3078313565372c3078313565372c3078313565372c3078313565372c30783163652c3078313565372c3078313565372c,
  0x2020202030783163652c3078313565372c3078313565372c3078313565372c3078313565372c3078313565372c30783163652c3078316131362c3078313731662c3078313565372c3078313564382c3078313564652c3078313564382c3078313564652c3078313564652c3078313564652c,
  0x202020203078313564652c30783163652c30783163652c3078313564652c3078313564652c30783163652c30783163652c3078313565312c3078313565312c3078313565342c30783163652c30783163652c3078313737392c30783163652c30783163652c30783163652c,
  0x2020202030783163652c30783163652c30783163652c3078313564382c30783163652c30783163652c30783163652c30783163652c30783163652c3078313565612c3078313565372c3078313565372c3078313565372c3078313565372c3078313564652c3078313564652c,
  0x2020202030783163652c30783163652c3078313564622c3078313564622c3078313564622c3078313564622c3078313564622c3078313564622c3078313564622c30783163652c30783163652c30783163652c3078313564622c3078313564622c3078313564622c3078313564622c,
  0x202020203078313564622c30783163652c30783163652c30783163652c30783163652c30783163652c30783163652c30783163652c30783163652c30783163652c30783163652c30783163652c3078313566662c3078313566662c3078313566662c3078313566662c,
  0x202020203078313566662c3078313566662c3078313566662c3078313566662c3078313566662c3078313566662c3078313566662c3078313566662c3078313566662c3078313566662c3078313566662c3078313566662c3078313566662c3078313566662c30783164312c3078313566662c,
  0x202020203078313566662c3078313566662c3078313566662c3078313566662c3078313566662c3078313566662c3078313566662c3078313566662c3078313566662c3078313566662c3078313566662c3078313566662c3078313566392c3078313566392c3078313566392c3078313565642c,
  0x202020203078313565642c3078313565642c3078313566392c3078313566392c3078313565642c3078313566632c3078313566302c3078313565642c3078313630322c3078313630322c3078313566362c3078313630322c3078313630322c3078313566332c3078313830632c30783164312c,
  0x202020203078313631312c3078313631312c3078313631312c3078313630352c3078313630352c3078313630352c3078313630352c3078313630352c3078313630352c3078313630382c3078313630622c30783164342c30783164342c30783164342c30783164342c30783164342c,
  0x202020203078313630652c3078313630652c3078313630652c3078313630652c3078313630652c3078313630652c3078313630652c3078313630652c3078313630652c3078313630652c30783164342c30783164342c30783164342c30783164342c30783164342c30783164342c,
  0x202020203078313737632c3078313737632c3078313737632c3078313737632c3078313631642c3078313631612c3078316133642c3078316133642c3078316165352c3078316165382c3078316165322c3078316165322c30783164372c30783164372c30783164372c30783164372c,
  0x202020203078313761362c3078313761362c3078313761362c3078313761362c3078313761362c3078313761362c3078313761362c3078313761362c3078313761362c3078313761362c3078313761362c3078313761362c3078313761362c3078313761362c3078313761362c3078313761362c,
  0x202020203078313632332c3078313632332c3078313632332c3078313632332c3078313632332c3078313632332c3078313632332c3078313632332c3078313632332c3078313632332c3078313632332c3078313632332c3078313632332c3078313632332c3078313632332c3078313632332c,
  0x202020203078313632332c3078313632332c3078313632332c3078313632332c3078313632332c3078313632332c3078313632332c30783164612c30783164612c30783164612c30783164612c30783164612c30783164612c30783164612c30783164612c30783164612c,
  0x202020203078313632332c3078313632332c3078313632332c3078313632332c3078313632332c3078313632332c3078313632332c3078313632332c3078313632332c3078313632332c3078313632332c3078313632332c3078313632332c3078313632332c3078313632332c3078313632332c,
  0x202020203078313632332c3078313632332c3078313632332c3078313632332c3078313632332c3078313632332c30783164612c30783164612c30783164612c30783164612c30783164612c30783164612c30783164612c30783164612c30783164612c30783164612c,
  0x202020203078313632332c3078313632332c3078313632332c3078313632332c3078313632332c3078313632332c3078313632332c3078313632332c30783164612c30783164612c30783164612c30783164612c30783164612c30783164612c30783164612c30783164612c,
  0x2020202030783164612c30783164612c30783164612c30783164612c30783164612c30783164612c30783164612c30783164612c30783164612c30783164612c30783164612c30783164612c30783164612c30783164612c30783164612c30783164612c,
  0x202020203078313632662c3078313632662c3078313632662c3078313632662c3078313632662c3078313632662c3078313632662c3078313632662c3078313632662c3078313632662c3078313632662c3078313632662c3078313632662c3078313632662c3078313632662c3078313632662c,
  0x202020203078313632662c3078313632662c3078313632662c3078313632362c3078313632392c3078313632632c3078313632662c30783164642c30783164642c30783164642c30783164642c30783164642c30783164642c30783164642c30783164642c30783164642c,
  0x202020203078313633652c3078313633652c3078313633652c3078313633652c3078313633652c3078313633322c3078313633322c30783165302c30783165302c30783165302c30783165302c3078313633352c3078313633352c3078313633352c3078313633352c3078313633352c,
  0x202020203078313633622c3078313633622c3078313633622c3078313633622c3078313633622c3078313633622c3078313633382c30783165302c30783165302c30783165302c30783165302c30783165302c30783165302c30783165302c30783165302c30783165302c,
  0x202020203078313634372c3078313634372c3078313634372c3078313634372c3078313634372c30783165332c30783165332c3078313634342c3078313634342c3078313634342c3078313634342c3078313634342c3078313634342c3078313634342c3078313634342c3078313634342c,
  0x202020203078313634312c3078313634312c3078313634312c3078313634312c3078313634312c3078313634312c3078313634312c30783165332c30783165332c30783165332c30783165332c30783165332c30783165332c30783165332c30783165332c30783165332c,
  0x202020203078313634612c3078313635632c3078313635632c3078313635302c3078313635392c30783165362c30783165362c30783165362c30783165362c30783165362c30783165362c30783165362c30783165362c30783165362c30783165362c30783165362c,
  0x202020203078313635332c3078313635332c3078313635332c3078313635332c3078313635332c3078313635332c3078313635332c3078313635332c3078313635332c3078313635332c30783165362c30783165362c30783165362c30783165362c30783165362c30783165362c,
  0x202020203078313636322c3078313636322c3078313636322c3078313636322c3078313636322c3078313636322c3078313636322c3078313636322c3078313636322c3078313636322c3078313636322c3078313636322c3078313636322c3078313636322c3078313636322c3078313636322c,
  0x202020203078313636322c3078313636322c3078313636322c3078313636322c3078313636322c3078313636322c3078313636322c3078313636322c3078313636322c3078313636322c3078313636322c3078313636322c3078313636322c3078313636322c3078313636322c30783165392c,
  0x202020203078313636652c3078313636652c3078313636652c3078313636652c3078313636652c3078313636382c3078313637312c3078313636652c3078313636652c3078313636652c3078313636652c3078313636652c3078313636652c3078313636652c3078313636652c3078313636652c,
  0x202020203078313636622c3078313636622c3078313636622c3078313636622c3078313636622c3078313636622c3078313636622c3078313636622c3078313636622c3078313636622c3078313636652c3078313636652c3078313636652c3078313636652c3078313636652c30783165632c,
  0x202020203078313637372c3078313637372c3078313637372c3078313637372c3078313637372c3078313637372c3078313637372c3078313637372c3078313637372c3078313637372c3078313637372c3078313637372c3078313637372c3078313637372c3078313637372c3078313637372c,
  0x202020203078313637372c3078313637372c3078313637372c3078313637372c3078313637372c3078313637372c3078313637372c3078313637372c3078313637372c3078313637372c3078313637372c3078313637372c3078313637372c3078313637372c3078313637372c30783165662c]

/-- UnicodeData/CharPropsData.py:2434-2689 the lines. -/
def charText12 : List Nat :=
 [0x202020203078313638332c3078313638332c3078313638332c3078313638332c3078313638332c3078313638332c3078313638332c3078313638332c3078313638332c3078313638332c3078313638332c3078313638332c3078313638332c3078313638332c3078313638332c3078313638332c,
  0x202020203078313638332c3078313638332c3078313638332c3078313638332c3078313638332c3078313638332c3078313638302c3078313638302c3078313638302c3078313638302c3078313638302c30783166322c30783166322c30783166322c30783166322c30783166322c,
  0x202020203078313639622c3078313639622c3078313639652c3078313639652c3078313661312c3078313639322c30783166352c30783166352c30783166352c30783166352c30783166352c30783166352c30783166352c30783166352c30783166352c30783166352c,
  0x202020203078313639382c3078313639382c3078313639382c3078313639382c3078313639382c3078313639382c3078313639382c3078313639382c3078313639382c3078313639382c30783166352c3078313639322c3078313639322c3078313639322c3078313639322c3078313639322c,
  0x202020203078313639322c3078313639322c30783166352c3078313639622c3078313639622c3078313639622c3078313639622c3078313639622c3078313639622c3078313639622c3078313639622c3078313639622c3078313639622c3078313639622c3078313639622c3078313639622c,
  0x202020203078313639622c3078313639622c3078313639622c3078313639622c3078313639622c3078313639622c3078313639622c3078313639622c30783166352c30783166352c30783166352c30783166352c30783166352c3078313639622c3078313639622c3078313639622c,
  0x202020203078313661612c3078313661612c3078313661612c3078313661612c3078313661612c3078313661612c3078313661612c3078313661612c3078313661612c3078313661612c3078313661612c3078313661612c3078313661612c3078313661612c3078313661612c3078313661612c,
  0x202020203078313661612c3078313661612c3078313661612c3078313661612c3078313661612c3078313661612c3078313661612c3078313661612c3078313661612c30783166382c30783166382c30783166382c30783166382c30783166382c30783166382c30783166382c,
  0x202020203078313662332c3078313662332c3078313662332c3078313662332c3078313662332c3078313662332c3078313662332c3078313662332c3078313662332c3078313662332c3078313662332c3078313662332c3078313662332c3078313662332c3078313662332c3078313662332c,
  0x202020203078313662332c3078313662332c30783166622c30783166622c30783166622c30783166622c30783166622c30783166622c30783166622c3078313662302c3078313662302c3078313662302c3078313662302c30783166622c30783166622c30783166622c,
  0x202020203078313663652c3078313663652c3078313663652c3078313663652c3078313663652c3078313663652c3078313663652c3078313663652c3078313663652c3078313663652c3078313663652c3078313663652c3078313663652c3078313663652c3078313663652c3078313662362c,
  0x202020203078313663382c3078313663382c3078313662362c3078313662362c3078313662362c3078313662362c30783230312c30783230312c3078313663382c3078313663382c3078313663622c3078313663622c3078313662362c3078313662362c3078313663382c3078313662632c,
  0x202020203078313662392c3078313662662c3078313664312c3078313664312c3078313663322c3078313663322c3078313663352c3078313663352c3078313663352c3078313664312c3078313738352c3078313738352c3078313738352c3078313738352c3078313738352c3078313738352c,
  0x202020203078313738352c3078313738352c3078313738352c3078313738352c3078313738352c3078313738352c3078313738352c3078313738352c3078313738322c3078313738322c3078313738322c3078313738322c3078313737662c3078313737662c30783230312c30783230312c,
  0x2020202030783230312c30783230312c30783230312c30783230312c30783230312c30783230312c30783230312c30783230312c30783230312c30783230312c30783230312c30783230312c30783230312c30783230312c30783230312c30783230312c,
  0x2020202030783230312c30783230312c30783230312c30783230312c30783230312c30783230312c30783230312c30783230312c30783230312c30783230312c30783230312c30783230312c30783230312c30783230312c30783230312c30783230312c,
  0x2020202030783230342c3078313664342c3078313664342c3078313664342c3078313664342c3078313664342c3078313664342c3078313664342c3078313664342c3078313664342c3078313664342c3078313664342c3078313664342c3078313664342c3078313664342c3078313664342c,
  0x202020203078313664342c3078313664342c3078313664342c3078313664342c3078313664342c30783230342c30783230342c30783230342c30783230342c30783230342c30783230342c30783230342c30783230342c30783230342c30783230342c30783230342c,
  0x202020203078313664372c3078313664372c3078313664372c3078313664372c3078313664372c3078313664372c3078313664372c3078313664372c3078313664372c3078313664372c3078313664372c3078313664372c30783230372c30783230372c30783230372c30783230372c,
  0x202020203078313664372c3078313664372c3078313664372c3078313664372c3078313664372c3078313664372c3078313664372c3078313664372c3078313664372c3078313664372c3078313664372c3078313664372c3078313664372c3078313664372c3078313664372c3078313664372c,
  0x2020202030783230372c30783230372c30783230372c30783230372c30783230372c30783230372c30783230372c30783230372c3078313664372c3078313664372c3078313664372c3078313664372c3078313664372c3078313664372c3078313664372c3078313664372c,
  0x202020203078313664372c3078313664372c30783230372c30783230372c30783230372c30783230372c30783230372c30783230372c3078313664372c3078313664372c3078313664372c3078313664372c3078313664372c3078313664372c3078313664372c3078313664372c,
  0x2020202030783230372c30783230372c30783230372c30783230372c30783230372c30783230372c30783230372c30783230372c3078313664372c3078313664372c3078313664372c3078313664372c3078313664372c3078313664372c3078313664372c3078313664372c,
  0x202020203078313664372c3078313664372c3078313664372c3078313664372c3078313664372c3078313664372c3078313664372c3078313664372c3078313664372c3078313664372c30783230372c30783230372c3078316165622c3078316165622c30783230372c30783230372c,
  0x2020202030783230372c30783230372c30783230372c30783230372c30783230372c30783230372c30783230372c30783230372c30783230372c30783230372c30783230372c30783230372c30783230372c30783230372c30783230372c30783230372c,
  0x2020202030783230372c30783230372c30783230372c30783230372c30783230372c30783230372c30783230372c30783230372c30783230372c30783230372c30783230372c30783230372c30783230372c30783230372c30783230372c30783230372c,
  0x202020203078313664612c3078313665392c3078313665302c3078313664642c3078313665662c3078313665662c3078313665332c3078313665662c30783230612c30783230612c30783230612c30783230612c30783230612c30783230612c30783230612c30783230612c,
  0x202020203078313665362c3078313665362c3078313665362c3078313665362c3078313665362c3078313665362c3078313665362c3078313665362c3078313665362c3078313665362c30783230612c30783230612c30783230612c30783230612c30783230612c30783230612c,
  0x202020203078313666352c3078313666352c3078313666352c3078313666352c3078313666352c3078313666352c3078313666352c3078313666352c3078313666352c3078313666352c3078313666322c3078313666322c3078313666322c3078313666322c3078313666322c3078313666322c,
  0x202020203078313666322c3078313666322c3078313666322c30783230642c30783230642c30783230642c30783230642c30783230642c30783230642c30783230642c30783230642c30783230642c30783230642c30783230642c30783230642c3078313666622c,
  0x202020203078313739372c3078313739372c3078313739372c3078313739372c3078313739372c3078313739372c3078313739372c3078313739372c3078313739372c3078313739372c3078313739372c3078313739372c3078313739372c3078313739372c3078313739372c3078313739372c,
  0x202020203078313739372c3078313739372c3078313739372c3078313739372c3078313739372c3078313739372c3078313739372c3078313739372c3078313739372c3078313739372c3078313938662c30783231302c30783231302c3078313738382c3078313738382c3078313738382c,
  0x202020203078313739342c3078313739342c3078313738382c3078313738382c3078313738382c3078313738382c3078313739342c3078313738382c3078313738382c3078313738382c3078313738382c3078313738622c30783231302c30783231302c30783231302c30783231302c,
  0x202020203078313739312c3078313739312c3078313739312c3078313739312c3078313739312c3078313739312c3078313739312c3078313739312c3078313739312c3078313739312c3078313738652c3078313738652c3078313739612c3078313739612c3078313739612c3078313738652c,
  0x202020203078313739642c3078313739642c3078313739642c3078313739642c3078313739642c3078313739642c3078313739642c30783231332c30783231332c30783231332c30783231332c30783231332c30783231332c30783231332c30783231332c30783231332c,
  0x2020202030783231332c30783231332c30783231332c30783231332c30783231332c30783231332c30783231332c30783231332c30783231332c30783231332c30783231332c30783231332c30783231332c30783231332c30783231332c30783231332c,
  0x2020202030783231332c30783231332c30783231332c30783231332c30783231332c30783231332c30783231332c30783231332c3078313761662c3078313761662c3078313761662c3078313761662c3078313761662c3078313761662c3078313761662c3078313761662c,
  0x202020203078313761662c3078313761662c3078313761662c3078313761662c3078313761662c3078313761662c3078313761662c3078313761662c3078313761662c3078313761662c3078313761662c30783231392c3078313761662c3078313761662c30783231392c30783231392c,
  0x2020202030783231392c30783231392c30783231392c3078313761632c3078313761632c3078313761632c3078313761632c3078313761632c3078313762322c3078313762322c3078313762322c3078313762322c3078313762322c3078313762322c3078313762322c30783231632c,
  0x202020203078313762322c30783231632c3078313762322c3078313762322c3078313762322c3078313762322c30783231632c3078313762322c3078313762322c3078313762322c3078313762322c3078313762322c3078313762322c3078313762322c3078313762322c3078313762322c,
  0x202020203078313762322c3078313762322c3078313762322c3078313762322c3078313762322c3078313762322c30783231632c3078313762322c3078313762322c3078313762322c3078313762322c3078313762322c3078313762322c3078313762322c3078313762322c3078313762322c,
  0x202020203078313762322c3078313762352c30783231632c30783231632c30783231632c30783231632c30783231632c30783231632c3078313631342c3078313631342c3078313631342c3078313631342c3078313631342c3078313631342c3078313631342c3078313631342c,
  0x202020203078313631342c3078313631342c3078313631342c3078313631342c3078313631342c3078313631342c3078313631342c3078313631342c3078313762652c3078313762652c3078313762652c3078313762652c3078313762652c3078313762652c3078313762652c3078313762652c,
  0x202020203078313762652c3078313762652c3078313762652c3078313762652c3078313762652c3078313762652c3078313762652c3078313762652c3078313762652c3078313762652c3078313762652c30783231662c30783231662c30783231662c30783231662c30783231662c,
  0x2020202030783231662c30783231662c30783231662c30783231662c30783231662c30783231662c30783231662c30783231662c3078313762622c3078313762622c3078313762622c3078313762622c3078313762622c3078313762622c3078313762622c3078313762622c,
  0x202020203078313762622c3078313762622c3078313762622c3078313762622c3078313762622c3078313762622c3078313762622c3078313762622c3078313762622c3078313762622c3078313762622c30783231662c30783231662c30783231662c30783231662c30783231662c,
  0x2020202030783231662c30783231662c3078313762382c3078313762382c3078313762382c3078313762382c3078313762382c3078313762382c3078313932392c3078313932392c3078313932392c3078313932392c3078313932392c3078313932392c3078313932392c3078313932392c,
  0x202020203078313932392c3078313932392c3078313932392c3078313932392c3078316130612c3078316130612c3078316130612c3078316130612c3078316130612c3078316139342c3078316233632c3078316130612c3078316130612c3078316130612c3078316130612c3078316233662c,
  0x202020203078316233632c30783232322c3078316130612c3078316139342c3078316130612c3078316130612c3078316130612c3078316130612c3078313764662c3078316130612c3078316130612c3078316139342c3078316139342c3078316139342c3078316139342c3078316139342c,
  0x202020203078316139342c3078316139342c3078316139342c3078316233632c30783232322c3078316139372c3078316139372c3078316139372c3078313932392c3078313932632c3078313932632c3078313932632c3078313932632c3078313932632c3078313932632c3078313932632c,
  0x202020203078313932632c3078313932632c3078313932632c3078313932632c3078313932632c3078313932632c3078313932392c3078313932392c3078313763342c3078313763342c3078313763342c3078313763342c3078313763312c3078313763342c3078313763342c3078313763372c,
  0x202020203078313763612c3078313763372c3078313763372c3078313763342c30783232352c30783232352c30783232352c30783232352c30783232352c30783232352c30783232352c30783232352c30783232352c30783232352c30783232352c30783232352c,
  0x2020202030783232352c30783232352c30783232352c3078313763312c3078313763312c3078313763312c3078313763312c3078313763312c3078313832312c3078313832312c3078313832312c3078313832312c3078313831382c3078313831382c3078313831382c3078313831322c,
  0x202020203078313831352c3078313831352c3078313831352c3078316134302c30783232382c30783232382c30783232382c30783232382c3078313831652c3078313831652c3078313831652c3078313831652c3078313831652c3078313831652c3078313831652c3078313831652c,
  0x202020203078313831652c3078313831652c30783232382c30783232382c30783232382c30783232382c3078313831622c3078313831622c3078313833632c3078313833632c3078313833632c3078313833632c3078313833632c3078313833632c3078313833632c3078313833632c,
  0x202020203078313833632c30783232622c3078313833632c3078313833632c3078313833632c3078313833632c3078313833632c3078313833632c3078313833632c3078313833632c3078313833632c3078313833632c3078313833632c3078313833632c3078313833632c3078313833632c,
  0x202020203078313833632c3078313833632c3078313833632c3078313833632c3078313833632c3078313833632c3078313833632c3078313833632c3078313833632c3078313833632c3078313833632c3078313833392c3078313832372c3078313832372c3078313832372c3078313832372c,
  0x202020203078313832372c3078313832372c3078313832372c30783232622c3078313832372c3078313832372c3078313832372c3078313832372c3078313832372c3078313832372c3078313833392c3078313832612c3078313833632c3078313833662c3078313833662c3078313833332c,
  0x202020203078313833302c3078313833302c30783232622c30783232622c30783232622c30783232622c30783232622c30783232622c30783232622c30783232622c30783232622c30783232622c3078313833362c3078313833362c3078313833362c3078313833362c,
  0x202020203078313833362c3078313833362c3078313833362c3078313833362c3078313833362c3078313833362c3078313832642c3078313832642c3078313832642c3078313832642c3078313832642c3078313832642c3078313832642c3078313832642c3078313832642c3078313832642c,
  0x202020203078313832642c3078313832642c3078313832642c3078313832642c3078313832642c30783232622c30783232622c30783232622c3078313834622c3078313834652c3078313835342c3078313835342c3078313835342c3078313835342c3078313835342c3078313835342c,
  0x202020203078313835342c3078313835342c3078313835342c3078313835342c3078313835342c3078313835342c3078313835342c3078313835342c3078313834322c3078313834322c3078313834322c3078313834322c3078313834322c3078313834322c3078313834322c3078313834322c,
  0x202020203078313834322c30783232652c30783232652c30783232652c30783232652c30783232652c30783232652c30783232652c3078313961642c3078313961642c3078313961642c3078313961642c3078313961642c3078313961642c3078313961642c3078313961642c,
  0x202020203078313961642c3078313961642c3078313961642c3078313961642c3078313961642c3078313961642c3078313961642c3078313961642c3078313834352c3078313834352c3078313834352c3078313834352c3078313834352c3078313834352c3078313834352c30783233312c,
  0x202020203078313834352c3078313834352c3078313834352c3078313834352c3078313834352c3078313834352c3078313834352c3078313834352c3078313834352c3078313834352c3078313834352c3078313834352c3078313834352c3078313834352c3078313834352c3078313834352c,
  0x202020203078313834352c30783233312c30783233312c3078313834352c3078313834352c3078313834352c3078313834352c3078313834352c3078313839332c3078313932662c3078316139612c3078316139642c3078316234352c30783233342c30783233342c30783233342c,
  0x2020202030783233342c30783233342c30783233342c30783233342c30783233342c30783233342c30783233342c30783233342c3078316234322c3078316234322c30783233342c30783233342c30783233342c30783233342c30783233342c30783233342c,
  0x2020202030783233342c30783233342c30783233342c30783233342c30783233342c30783233342c30783233342c30783233342c3078313835342c3078313835342c3078313835342c3078313835342c3078313835342c3078313835342c3078313835342c3078313835342c,
  0x202020203078313835342c3078313835342c3078313835342c3078313835342c3078313835342c3078313835342c3078313835342c3078313835342c30783233372c30783233372c3078313834382c3078313834382c3078313834382c3078313834382c3078313834382c3078313834382c,
  0x202020203078313834382c3078313834382c3078313834382c3078313834382c3078313834382c3078313834382c3078313834382c3078313834382c30783233372c3078313835312c3078313834382c3078313834382c3078313834382c3078313834382c3078313834382c3078313834382c,
  0x202020203078313834382c3078313835312c3078313834382c3078313834382c3078313835312c3078313834382c3078313834382c30783233372c30783233372c30783233372c30783233372c30783233372c30783233372c30783233372c30783233372c30783233372c,
  0x202020203078313835372c3078313835372c3078313835372c3078313835372c3078313835372c3078313835372c3078313835372c3078313835372c3078313835372c3078313835372c3078313835372c3078313835372c3078313835372c30783233612c30783233612c30783233612c,
  0x2020202030783233612c30783233612c30783233612c30783233612c30783233612c30783233612c30783233612c30783233612c30783233612c30783233612c30783233612c30783233612c30783233612c30783233612c30783233612c30783233612c,
  0x202020203078313836662c3078313836662c3078313836302c3078313835612c3078313835612c3078313836662c3078313835642c3078313837322c3078313837322c3078313837322c3078313837322c3078313837352c3078313837352c3078313836392c3078313836362c3078313836332c,
  0x202020203078313836632c3078313836632c3078313836632c3078313836632c3078313836632c3078313836632c3078313836632c3078313836632c3078313836632c3078313836632c3078316165652c3078313836392c30783233642c3078313836332c3078313939322c3078316134332c,
  0x202020203078316166312c3078316166312c30783233642c30783233642c30783233642c30783233642c30783233642c30783233642c30783233642c30783233642c30783233642c30783233642c30783233642c30783233642c30783233642c30783233642c,
  0x2020202030783233642c30783233642c30783233642c30783233642c30783233642c30783233642c30783233642c30783233642c30783233642c30783233642c30783233642c30783233642c30783233642c30783233642c30783233642c30783233642c,
  0x202020203078313837622c3078313837622c3078313837622c3078313837622c3078313837622c3078313837622c3078313837622c3078313837622c3078313837622c3078313837622c3078313837622c3078313837622c3078313837622c3078313837622c3078313837622c3078313837622c,
  0x202020203078313837622c3078313837622c3078313837622c3078313837622c30783234302c30783234302c30783234302c30783234302c3078313837382c3078313837382c3078313837382c3078313837382c3078313837382c3078313837382c3078313837382c3078313837382c,
  0x202020203078313837382c3078313837382c3078313837382c3078313837382c3078313837382c3078313837382c3078313837382c3078313837382c3078313837382c3078313837382c3078313837382c3078313837382c3078313837382c3078313837382c3078313837382c3078313837382c,
  0x202020203078313837382c3078313837382c3078313837382c3078313837382c30783234302c30783234302c30783234302c30783234302c3078313839362c3078313839362c3078313839362c3078313839362c3078313839362c3078313839362c3078313839362c3078313839362c,
  0x202020203078313839362c3078313839362c3078313839362c3078313839362c3078313839362c3078316131332c3078316131332c3078316131332c3078316131332c3078316131332c3078316161302c3078316161302c3078316161302c3078316161302c3078316161302c3078316161302c,
  0x2020202030783234332c30783234332c30783234332c30783234332c30783234332c30783234332c30783234332c30783234332c3078313933352c3078313933352c3078313933352c3078313933352c3078313933352c3078313933352c3078313933352c3078313933352c,
  0x202020203078313933352c3078313933352c3078313933352c3078313933352c3078313933352c3078313933352c3078313933352c3078313933352c3078313933352c3078313933352c3078313933352c3078313933352c3078313933352c3078313933352c3078313933352c3078313933352c,
  0x202020203078313933352c3078313933352c3078313933352c3078313933352c3078313933352c3078313933352c3078313933352c30783234362c30783234362c30783234362c30783234362c30783234362c30783234362c30783234362c30783234362c30783234362c,
  0x2020202030783234362c30783234362c30783234362c30783234362c30783234362c30783234362c30783234362c30783234362c30783238382c30783238382c30783238382c30783238382c30783238382c30783238382c30783238382c30783238382c,
  0x2020202030783238382c30783238382c30783238382c30783238382c30783238382c30783238382c30783238382c30783238382c3078313864352c3078313864352c3078313864352c3078313864352c3078313864352c3078313864352c3078313864352c30783234392c,
  0x202020203078313864352c3078313864352c30783234392c3078313864352c3078313864352c3078313864352c3078313864352c3078313864352c3078313864352c3078313864352c3078313864352c3078313864352c3078313864352c3078313864352c3078313864352c3078313864352c,
  0x202020203078313864352c3078313864352c3078313864352c3078313864352c3078313864352c3078313864352c3078313864352c3078313864352c3078313864352c3078313863392c3078313863392c3078313863392c3078313863392c3078313863392c3078313863392c30783234392c,
  0x2020202030783234392c30783234392c3078313863392c30783234392c3078313863392c3078313863392c30783234392c3078313863392c3078313863392c3078313863392c3078313863632c3078313863392c3078313863662c3078313863662c3078313864382c3078313863392c,
  0x2020202030783234392c30783234392c30783234392c30783234392c30783234392c30783234392c30783234392c30783234392c3078313864322c3078313864322c3078313864322c3078313864322c3078313864322c3078313864322c3078313864322c3078313864322c,
  0x202020203078313864322c3078313864322c30783234392c30783234392c30783234392c30783234392c30783234392c30783234392c3078313933382c3078313933382c3078313933382c3078313933382c3078313933382c3078313933382c3078313933382c3078313933382c,
  0x202020203078313933382c3078313933382c3078313933382c3078313933382c3078313933382c3078313933382c3078313933382c3078313933382c3078313933382c3078313933382c3078313933382c3078313933382c3078313933382c3078313933382c3078313933382c3078313933382c,
  0x202020203078313933382c3078313933382c3078313933382c3078313933382c30783234632c30783234632c30783234632c30783234632c3078313930352c3078313930382c3078313931372c3078313931372c3078313930382c3078313930622c3078313930352c3078313930322c,
  0x2020202030783235352c30783235352c30783235352c30783235352c30783235352c30783235352c30783235352c30783235352c3078313866302c3078313864622c3078313864622c3078313864622c3078313864622c3078313864622c3078313864622c3078313865642c,
  0x202020203078313865642c3078313864622c3078313864622c3078313864622c3078313866302c3078313866302c3078313866302c3078313866302c3078316134392c3078316134392c3078316134392c3078316134392c3078316134392c3078316134392c3078316134392c3078316134392c,
  0x202020203078316134392c3078316134392c3078316134392c3078316134392c3078316134392c3078316134392c3078316134392c3078316134392c3078316134392c3078316134392c3078316134392c3078316134392c30783235382c30783235382c30783235382c30783235382c,
  0x2020202030783235382c30783235382c30783235382c30783235382c30783235382c30783235382c30783235382c30783235382c3078313939382c3078313939382c3078313939382c3078313939382c3078313939382c3078313939382c3078313939382c3078313939382c,
  0x202020203078313939382c3078313939382c3078313939382c3078313939382c3078313939382c3078313939382c30783235382c30783235382c3078316161392c3078316161392c3078316161392c3078316161392c3078316234622c30783238622c30783238622c30783238622c,
  0x202020203078316161392c3078316161392c3078316161392c30783238622c30783238622c30783238622c30783238622c30783238622c3078313961612c3078313961612c3078313961612c3078313961612c3078313961612c3078313961612c3078313961612c3078313961612c,
  0x202020203078313961612c3078313961612c3078313961612c3078313961612c3078313961372c3078313961372c3078313961372c3078313939622c3078313939622c3078313939622c3078313939622c3078313939622c3078313939622c3078313939622c3078313939622c3078313939622c,
  0x202020203078313961372c3078313961312c3078313939652c3078313961342c30783235622c30783235622c30783235622c30783235622c3078313961642c3078313961642c3078313961642c3078313961642c3078313961642c3078313961642c3078313961642c3078313961642c,
  0x202020203078313961642c3078313961642c3078313961642c3078313961642c3078313961642c3078313961642c3078313961642c3078313961642c3078313961642c3078313961642c3078313961642c3078313961642c3078313961642c3078313961642c3078313961642c3078313961642c,
  0x202020203078313961642c3078313961642c3078313961642c30783235652c30783235652c3078313961642c3078313961642c3078313961642c3078313962632c3078313962632c3078313962632c3078313962632c3078313962632c3078313962632c30783236312c3078313962632c,
  0x202020203078313962632c30783236312c3078313962632c3078313962632c3078313962632c3078313962632c3078313962632c3078313962632c3078313962632c3078313962632c3078313962632c3078313962632c3078313962632c3078313962632c3078313962632c3078313962632c,
  0x202020203078313962632c3078313962632c3078313962632c3078313962632c3078313962632c3078313962632c3078313962632c3078313962632c3078313962632c3078313962632c3078313962392c3078313962392c3078313962392c3078313962392c3078313962392c30783236312c,
  0x202020203078313962302c3078313962302c30783236312c3078313962392c3078313962392c3078313962302c3078313962392c3078313962332c3078313962632c30783236312c30783236312c30783236312c30783236312c30783236312c30783236312c30783236312c,
  0x202020203078313963352c3078313963352c3078313963382c3078313963382c3078313962662c3078313962662c3078313962662c3078313962662c30783236342c30783236342c30783236342c30783236342c30783236342c30783236342c30783236342c30783236342c,
  0x202020203078313963322c3078313963322c3078313963322c3078313963322c3078313963322c3078313963322c3078313963322c3078313963322c3078313963322c3078313963322c30783236342c30783236342c30783236342c30783236342c30783236342c30783236342c,
  0x202020203078313963622c3078313963622c3078313963622c3078313963622c3078313963622c3078313963622c3078313963622c3078313963622c3078313963622c3078313963622c3078313963622c3078313963622c3078313963652c3078313963622c3078313963622c3078313963622c,
  0x202020203078313963652c3078313963622c3078313963622c3078313963622c3078313963622c30783236372c30783236372c30783236372c30783236372c30783236372c30783236372c30783236372c30783236372c30783236372c30783236372c30783236372c,
  0x202020203078313964372c3078313964372c3078313964372c3078313964372c3078313964372c3078313964372c3078313964372c3078313964372c3078313964372c3078313964372c3078313964372c3078313964372c3078313964372c3078313964372c3078313964372c3078313964372c,
  0x202020203078313964372c3078313964372c3078313964372c3078313964312c3078313964312c3078313964342c3078313964342c3078313964612c3078313964612c30783236612c30783236612c30783236612c30783236612c30783236612c30783236612c30783236612c,
  0x202020203078313964642c3078313964642c3078313964642c3078313964642c3078313964642c3078313964642c3078313964642c3078313964642c3078313964642c3078313964642c3078313964642c3078313964642c3078313964642c3078313964642c3078313964642c3078313964642c,
  0x202020203078313964642c3078313964642c3078313964642c3078313964642c30783236642c30783236642c30783236642c30783236642c30783236642c30783236642c30783236642c30783236642c30783236642c30783236642c30783236642c30783236642c,
  0x202020203078313965302c3078313965302c3078313965302c3078313965302c3078313965302c3078313965302c3078313965302c3078313965302c3078313965302c3078313965302c3078313965302c3078313965302c3078313965302c3078313965302c3078313965302c3078313965302c,
  0x202020203078313965302c3078313965302c3078313965302c3078313965302c3078313965302c3078313965302c3078313965302c3078313965332c3078313965632c3078313965302c3078313965302c30783237302c30783237302c30783237302c30783237302c30783237302c,
  0x202020203078313965662c3078313965662c3078313965662c3078313965662c3078313965662c3078313965662c3078313965662c3078313966322c30783237332c30783237332c30783237332c30783237332c30783237332c30783237332c30783237332c30783237332c,
  0x202020203078313966622c3078313966622c3078313966622c3078313966622c3078313966622c3078313966622c3078313966622c3078313966622c3078313966622c3078313966622c3078313966622c3078313966622c3078313966622c3078313966622c3078313966622c3078313966622c,
  0x202020203078313966622c3078313966622c3078313966352c3078313966352c3078313966352c3078313966352c3078313966352c3078313966352c3078313966352c3078313966352c3078313966352c3078313966352c3078313966352c3078313966382c3078313966382c3078313966382c,
  0x202020203078313966382c3078313966652c3078313966652c3078313966652c3078313966652c3078313966652c30783237362c30783237362c30783237362c30783237362c30783237362c30783237362c3078316135352c3078316135352c3078316135352c3078316135352c,
  0x202020203078316135352c3078316135352c3078316135352c3078316135352c3078316135352c3078316135352c3078316135352c3078316135352c3078316135352c3078316135352c3078316135352c3078316135352c3078316135352c3078316135352c3078316135352c3078316135352c,
  0x202020203078316135352c3078316135352c3078316135352c30783237632c30783237632c30783237632c30783237632c30783237632c30783237632c30783237632c30783237632c30783237632c3078316136342c3078316136342c3078316136342c3078316136342c,
  0x202020203078316136342c3078316136342c3078316136342c3078316136342c30783237662c30783237662c3078316136342c3078316136342c3078316136342c3078316136342c3078316136342c3078316136342c3078316136342c3078316136342c3078316136342c3078316136342c,
  0x202020203078316136342c3078316136342c3078316136342c3078316136342c3078316136342c3078316136342c3078316136342c3078316136342c3078316136342c3078316136342c3078316136342c3078316136342c3078316136342c3078316136312c3078316136312c3078316136312c,
  0x202020203078316135382c3078316135382c3078316135382c3078316135382c30783237662c30783237662c3078316135382c3078316135382c3078316136312c3078316136312c3078316136312c3078316136312c3078316135622c3078316136342c3078316135652c3078316136342c,
  0x202020203078316136312c30783237662c30783237662c30783237662c30783237662c30783237662c30783237662c30783237662c30783237662c30783237662c30783237662c30783237662c30783237662c30783237662c30783237662c30783237662c,
  0x2020202030783237662c30783237662c30783237662c30783237662c30783237662c30783237662c30783237662c30783237662c30783237662c30783237662c30783237662c30783237662c3078316137302c3078316137302c3078316137302c3078316137302c,
  0x202020203078316137302c3078316137302c3078316137302c3078316137302c3078316137302c3078316137302c3078316137302c3078316137302c3078316137302c30783238322c30783238322c30783238322c3078316136372c3078316136372c3078316136372c3078316136372c,
  0x202020203078316136372c3078316136372c3078316136372c3078316137302c3078316137302c3078316137302c3078316137302c3078316137302c3078316137332c3078316137332c30783238322c30783238322c30783238352c3078316137362c3078316137362c3078316137362c,
  0x202020203078316137362c3078316137362c3078316137362c3078316137362c3078316137362c3078316137362c3078316137362c3078316137362c3078316137362c3078316137362c3078316137362c3078316137362c3078316137362c3078316137362c3078316137362c3078316137362c,
  0x202020203078316137362c3078316137362c3078316137362c3078316137362c3078316137362c3078316137362c3078316137362c3078316137362c3078316137362c3078316137362c3078316137362c3078316137362c3078316137362c3078316137362c30783238352c30783238352c,
  0x2020202030783238382c30783238382c30783238382c30783238382c30783238382c30783238382c30783238382c30783238382c30783238382c30783238382c30783238382c30783238382c30783238382c30783238382c30783238382c30783238382c,
  0x202020203078316161332c3078316161332c3078316161332c30783238382c30783238382c30783238382c30783238382c30783238382c30783238382c30783238382c30783238382c30783238382c30783238382c30783238382c30783238382c30783238382c,
  0x202020203078316161362c3078316161362c3078316161362c3078316161362c30783238382c30783238382c30783238382c30783238382c30783238382c30783238382c30783238382c30783238382c3078313933382c3078313933382c3078313933382c3078313933382c,
  0x202020203078313933382c3078313933382c3078313933382c3078313933382c3078313933382c3078313933382c3078313933382c3078313933382c3078313933382c3078313933382c3078313933382c3078313933382c3078316161392c3078316161392c3078316161392c3078316234622c,
  0x202020203078316234622c3078316234622c3078316234622c30783238622c30783238622c30783238622c30783238622c30783238622c30783238622c30783238622c30783238622c30783238622c3078316161392c3078316161392c3078316161392c3078316161392c,
  0x202020203078316161392c3078316161392c3078316234622c3078316234622c3078316234622c3078316234622c3078316234622c3078316234622c3078316234622c3078316234622c3078316234622c3078316234622c3078316234622c30783238622c30783238622c30783238622c,
  0x2020202030783238622c30783238622c30783238622c30783238622c3078316234622c3078316234622c3078316234622c3078316234622c3078316234622c3078316234622c3078316234622c30783238622c30783238622c30783238622c30783238622c30783238622c,
  0x2020202030783238622c30783238622c30783238622c30783238622c30783238622c30783238622c30783238622c30783238622c3078316234622c3078316234622c3078316234622c3078316234622c3078316234622c3078316234622c3078316234622c30783238622c,
  0x2020202030783238622c30783238622c30783238622c30783238622c30783238622c30783238622c30783238622c30783238622c30783238622c30783238622c30783238622c30783238622c30783238622c30783238622c30783238622c30783238622c,
  0x2020202030783238622c30783238622c30783238622c30783238622c30783238622c30783238622c30783238622c30783238622c30783238622c30783238622c30783238622c30783238622c30783238622c30783238622c30783238622c30783238622c,
  0x202020203078316137662c3078316137392c3078316137392c3078316137392c3078316137392c3078316137392c3078316137392c3078316137392c3078316137392c3078316137392c3078316137392c3078316137392c3078316137392c3078316137392c3078316137392c3078316137392c,
  0x202020203078316137392c3078316137392c30783238652c30783238652c30783238652c30783238652c30783238652c30783238652c30783238652c30783238652c30783238652c30783238652c30783238652c30783238652c30783238652c3078316137632c,
  0x202020203078316138622c3078316138622c3078316138622c3078316138622c3078316138622c3078316138622c3078316138622c3078316138622c3078316138622c3078316138622c3078316138622c3078316138622c3078316138322c3078316138322c3078316138322c3078316138322c,
  0x202020203078316138382c3078316138382c3078316138382c3078316138382c3078316138382c3078316138382c3078316138382c3078316138382c3078316138382c3078316138382c30783239312c30783239312c30783239312c30783239312c30783239312c3078316138352c,
  0x202020203078316166372c3078316166372c3078316166372c3078316166372c3078316166372c3078316166342c3078316166342c3078316166342c3078316166342c3078316166342c3078316166342c3078316166342c30783239342c30783239342c30783239342c30783239342c,
  0x2020202030783239342c30783239342c30783239342c30783239342c30783239342c30783239342c30783239342c30783239342c30783239342c30783239342c30783239342c30783239342c30783239342c30783239342c30783239342c30783239342c,
  0x202020203078316231322c3078316231322c3078316231322c3078316231322c3078316231322c3078316231322c3078316231322c30783239372c30783239372c3078316231322c30783239372c30783239372c3078316231322c3078316231322c3078316231322c3078316231322c,
  0x202020203078316231322c3078316231322c3078316231322c3078316231322c30783239372c3078316231322c3078316231322c30783239372c3078316231322c3078316231322c3078316231322c3078316231322c3078316231322c3078316231322c3078316231322c3078316231322c,
  0x202020203078316231322c3078316231322c3078316231322c3078316231322c3078316231322c3078316231322c3078316231322c3078316231322c3078316166612c3078316230392c3078316230392c3078316230392c3078316230392c3078316230392c30783239372c3078316230392c,
  0x202020203078316230632c30783239372c30783239372c3078316166612c3078316166612c3078316230662c3078316230302c3078316231352c3078316230392c3078316231352c3078316230392c3078316166642c3078316231382c3078316230332c3078316231382c30783239372c,
  0x2020202030783239372c30783239372c30783239372c30783239372c30783239372c30783239372c30783239372c30783239372c3078316230362c3078316230362c3078316230362c3078316230362c3078316230362c3078316230362c3078316230362c3078316230362c,
  0x202020203078316230362c3078316230362c30783239372c30783239372c30783239372c30783239372c30783239372c30783239372c3078316235312c3078316235312c3078316235312c3078316235312c3078316235312c3078316235312c3078316235312c3078316235312c,
  0x202020203078316235312c3078316235312c3078316235312c3078316235312c3078316235312c3078316235312c3078316235312c3078316235312c3078316235312c3078316235312c3078316235312c3078316235312c3078316235312c3078316235312c30783239612c30783239612c,
  0x2020202030783239612c30783239612c30783239612c30783239612c30783239612c30783239612c30783239612c30783239612c30783239612c30783239612c30783239612c30783239612c30783239612c30783239612c30783239612c30783239612c,
  0x2020202030783239612c30783239612c30783239612c30783239612c30783239612c30783239612c30783239612c30783239612c30783239612c30783239612c30783239612c30783239612c30783239612c30783239612c30783239612c30783239612c,
  0x202020203078316231652c3078316231652c3078316231652c3078316231652c3078316231652c3078316231652c3078316231652c3078316231652c3078316231652c3078316231652c3078316231652c3078316231652c3078316231652c3078316231652c3078316231652c3078316231652c,
  0x202020203078316231652c3078316231652c3078316231652c30783261302c3078316231652c3078316231652c3078316231652c3078316231652c3078316231652c3078316231652c3078316231652c3078316231652c3078316231652c3078316231652c3078316231652c3078316231652c,
  0x202020203078316231652c3078316231652c3078316231652c30783261302c30783261302c30783261302c30783261302c30783261302c30783261302c30783261302c30783261302c30783261302c30783261302c30783261302c30783261302c30783261302c,
  0x2020202030783261302c30783261302c30783261302c30783261302c30783261302c30783261302c30783261302c30783261302c3078316232312c3078316232312c3078316232312c3078316232312c3078316232312c3078316232312c3078316232312c3078316232312c,
  0x202020203078316232312c3078316232312c30783261302c30783261302c30783261302c30783261302c30783261302c30783261302c3078316235342c3078316235342c3078316235342c3078316235342c3078316235342c3078316235342c3078316235342c3078316235342c,
  0x202020203078316235342c30783261332c30783261332c30783261332c30783261332c30783261332c30783261332c30783261332c30783261332c30783261332c30783261332c30783261332c30783261332c30783261332c30783261332c30783261332c,
  0x2020202030783261332c30783261332c30783261332c30783261332c30783261332c30783261332c30783261332c30783261332c30783261332c30783261332c30783261332c30783261332c30783261332c30783261332c30783261332c30783261332c,
  0x2020202030783261332c30783261332c30783261332c30783261332c3078316232612c3078316232612c3078316232612c3078316232612c3078316232612c3078316232612c3078316232612c3078316232612c3078316232612c3078316232612c30783261362c3078316232342c,
  0x202020203078316232342c3078316232372c30783261362c30783261362c3078316232612c3078316232612c30783261362c30783261362c30783261362c30783261362c30783261362c30783261362c30783261362c30783261362c30783261362c30783261362c,
  0x2020202030783261362c30783261362c30783261362c30783261362c30783261392c30783261392c30783261392c30783261392c30783261392c30783261392c30783261392c30783261392c30783261392c30783261392c30783261392c30783261392c,
  0x2020202030783261392c30783261392c30783261392c30783261392c30783261392c30783261392c30783261392c30783261392c30783261392c30783261392c30783261392c30783261392c30783261392c30783261392c30783261392c30783261392c,
  0x2020202030783261392c30783261392c30783261392c30783261392c3078313933322c30783263312c30783263312c30783263312c30783263312c30783263312c30783263312c30783263312c30783263312c30783263312c30783263312c30783263312c,
  0x2020202030783263312c30783263312c30783263312c30783263312c30783261392c30783261392c30783261392c30783261392c30783261392c30783261392c30783261392c30783261392c30783261392c30783261392c30783261392c30783261392c,
  0x2020202030783261392c30783261392c30783261392c30783261392c30783261392c30783261392c30783261392c30783261392c30783261392c30783261392c30783261392c30783261392c30783261392c30783261392c30783261392c30783261392c,
  0x2020202030783261392c30783261392c30783937622c30783937622c3078316234652c3078316234652c3078316234652c3078316234652c3078316234652c3078316234652c3078316234652c3078316234652c3078316234652c3078316234652c3078316234652c30783263342c,
  0x2020202030783263342c30783263342c30783263342c30783263342c30783261392c30783261392c30783261392c30783261392c30783261392c30783261392c30783261392c30783261392c30783261392c30783261392c30783261392c30783261392c,
  0x2020202030783261392c30783261392c30783261392c30783261392c3078313931642c3078313931642c3078313931642c3078313931642c3078313931642c3078313931642c3078313931642c3078313931642c3078313931642c3078313931642c3078313931642c3078316130342c,
  0x202020203078316130342c3078316130342c3078316130342c3078316130342c3078316233332c3078316233332c3078316233332c3078316233332c3078316233332c3078316233332c3078316233332c3078316233332c3078316233332c3078316233332c3078316233332c3078316233332c,
  0x202020203078316233332c30783261632c30783261632c30783261632c30786339662c30786339662c30786339662c30786339662c30786339662c30786339662c30786339662c30786339662c30786339662c30786339662c30786339662c3078313265342c,
  0x202020203078313265342c3078313265342c30783261662c30783261662c30786564302c30786564302c30786564302c30786564302c30786564302c30786564302c30786564302c30786564302c30786564302c30786564302c30786564302c30786564302c,
  0x2020202030786564302c30786564302c30786564302c30786564302c30786564302c30786564302c30786564302c30786564302c30786564302c30786564302c30786564302c30786564302c30786564302c30786564302c30783261662c30783261662c,
  0x2020202030783261662c30783261662c30783261662c30783261662c30783261662c30783261662c30783261662c30783261662c30783261662c30783261662c30783261662c30783261662c30783261662c30783261662c30783261662c30783261662c,
  0x2020202030783261662c30783261662c30783261662c30783261662c30783261662c30783261662c30783261662c30783261662c30783261662c30783261662c30783261662c30783261662c30783261662c30783261662c30783261662c30783261662c,
  0x2020202030786261392c30786261392c30786261392c30786261392c30786261392c30786261392c30786261392c30786261392c30786261392c30786261392c30786261392c30786261392c30786261392c30786261392c30786261392c30786261392c,
  0x2020202030786261392c30786261392c30786261392c30786261392c30786261392c30786261392c30786261392c3078316233362c3078316233362c3078316233362c3078316233362c3078316233362c3078316233362c3078316233362c30783262322c30783262322c,
  0x2020202030786261632c30786261632c30786261632c30786261632c30786261632c30786261632c30786261632c30786261632c30786261632c30786261632c30786261632c30786261632c30786261632c30786261632c30786261632c30786261632c,
  0x2020202030786261632c30786261632c30786261632c30786261632c30786261632c30786261632c30786261632c30786261632c30786261632c30786261632c30786261632c30786261632c30786261632c30786261632c30783262352c30783262352c,
  0x202020203078313266392c3078313266392c3078313266392c3078313266392c3078313266392c3078313266392c3078313266392c3078313266392c3078313266392c3078313266392c3078313266392c3078313266392c3078313266392c3078313266392c3078313266392c3078313266392c,
  0x202020203078313266392c3078313266392c3078313266392c3078313266392c3078313266392c30783262382c30783262382c30783262382c30783262382c30783262382c30783262382c30783262382c30783262382c30783262382c30783262382c30783262382c,
  0x202020203078313431362c3078313431362c3078313431362c3078313431362c3078313431362c3078313431362c3078313431362c3078313431362c3078313431362c3078313431362c3078313431362c3078313431362c3078313431362c3078313431362c3078313431362c3078313431362c,
  0x202020203078313431362c3078313431362c3078313431362c3078313431362c3078313431362c3078313431362c3078313431362c3078313431362c3078313431362c3078313431362c3078313431362c3078313431362c3078313431362c3078313431362c30783262622c30783262622c,
  0x202020203078313764632c3078313764632c30783262652c30783262652c30783262652c30783262652c30783262652c30783262652c30783262652c30783262652c30783262652c30783262652c30783262652c30783262652c30783262652c30783262652c,
  0x202020203078313933322c3078313933322c3078313933322c3078313933322c3078313933322c3078313933322c3078313933322c3078313933322c3078313933322c3078313933322c3078313933322c3078313933322c3078313933322c3078313933322c3078313933322c3078313933322c,
  0x2020202030783363632c30783363302c30783363302c30783363302c30783363302c30783363302c30783363302c30783363302c30783363302c30783363632c30783363632c30783363632c30783363632c30783363362c3078313135382c3078313333652c,
  0x2020202030783363662c30783934352c30783934382c30783362642c30783362642c3078313135352c3078313333622c3078313333622c30783364322c30783364322c30783364322c30783364322c30783364322c30783364322c30783364322c30783364322c,
  0x202020203078313135352c30783363302c30783363302c30783363632c30786365312c30783363662c30783363662c30783363662c30783363662c30783363662c30783363662c30783363662c30783363662c30783363662c30783363662c30783363662c,
  0x2020202030783363662c30783363662c30783363662c30783363662c30783363662c30783363662c30783363662c30783363662c30783363662c30783363662c30783363662c30783363662c30783363662c30783363662c30783363662c30783363662c,
  0x2020202030783363662c30783363662c30783363302c30783363302c30783864302c30783864332c30783936332c30783936332c30783936332c30783936332c30783936332c30783936332c30783936332c30783936332c30783936332c30783936332c,
  0x2020202030783363392c30786662612c30786662372c3078313334312c3078313334312c3078313334312c3078313334312c3078313334312c3078313530362c3078313135622c3078313135622c30786630632c30786630632c30786464612c30786630632c30786630632c,
  0x2020202030783363662c30783363662c30783363662c30783363662c30783363662c30783363662c30783363662c30783363662c30783363662c30783364322c30783363662c30783363662c30783363662c30783363662c30783363662c30783363662c,
  0x2020202030783363662c30783364322c30783363662c30783363662c30783364322c30783363662c30783363662c30783363662c30783363662c30783363662c3078313333622c3078313333652c30783363332c30783363662c30783363632c30783363632c,
  0x2020202030783436652c30783436652c30783436652c30783436652c30783436652c30783436652c30783436652c30783436652c30783436652c3078313334372c30783436652c30783436652c30783436652c30783436652c30783436652c30783436652c,
  0x2020202030783436652c30783436652c30783436652c30783436652c30783436652c30783436652c30783436652c30783436652c30783436652c30783436652c3078313334372c3078313861652c3078313861652c30786664382c30783435662c30783436382c,
  0x2020202030783461612c30783461612c30783461612c30783461612c30783461612c30783461612c30783461612c30783461612c30783461612c30783461612c30783461612c30783461612c30783461612c30783461612c30783461612c30783461612c,
  0x2020202030783461612c30783461612c30783461612c30783461612c30783461612c30783461612c30783461612c30786263372c30786263372c30786465362c30786465362c30783864362c30786465392c3078313432382c3078313432382c3078313432382c,
  0x2020202030783461642c30783461642c30783461642c30783461642c30783461642c30783461642c30783461642c30783461642c30783461642c30783461642c30783461642c30783461642c30783461642c30783461642c30783461642c30783461642c,
  0x2020202030783461642c30783461642c30783461642c30783461642c30783461642c30783461642c30783461642c30783461642c30783461642c30783461642c30783461642c30783461642c30783461642c30783461642c30783461642c30783461642c,
  0x2020202030783462332c30783462332c30783462332c3078313137302c3078313137302c3078313137302c3078313137302c3078313137302c30783462302c30783462302c30783462302c30783462302c30783462302c30783462302c30783462302c30783462302c,
  0x2020202030783462302c30783462302c30783462302c30783462302c30783462302c30783462302c30783462302c30783462302c30783462302c30783462302c30783462302c30783462302c30783462302c30783462302c30783462302c30783462302c,
  0x2020202030783462302c30783462302c30783462302c30783462302c30783462302c30783462302c30783462302c30783462302c30783462302c30783462302c3078313136642c3078313136642c3078313136642c3078313136642c3078313136642c3078313136642c,
  0x2020202030783462362c30783462332c30783462332c30783462332c30783462332c30783462332c30783462332c30783462332c30783462332c30783462332c30783462332c30783462332c30783462332c30783462332c30783462332c30783462332c,
  0x2020202030783462332c30783462332c30783462332c30783462332c30783462332c30783462332c30783462332c30783462332c30783462332c30783462332c30783462332c30783462332c30783462332c30783462332c30783462332c30783462332c,
  0x2020202030783462332c30783462332c30783462332c30783462332c30783462662c30783462392c30783462662c30783462392c30783462662c30783462392c30783462662c30783462392c30783462662c30783462392c30783462662c30783462392c,
  0x2020202030783462662c30783462392c30783462662c30783462392c30783462662c30783462392c30783462662c30783462392c30783462662c30783462392c30783462662c30783462392c30783462662c30783462392c30783462662c30783462392c,
  0x2020202030783462662c30783462392c30783462662c30783462392c30783462662c30783462392c30783462392c30783462392c30783462392c30783462392c30783462632c30783962642c3078313030352c3078313030352c3078313030382c3078313030352c,
  0x2020202030783462662c30783462392c30783462662c30783462392c30783462662c30783462392c30783462662c30783462392c30783462662c30783462392c30783462662c30783462392c30783462662c30783462392c30783462662c30783462392c,
  0x2020202030783462662c30783462392c30783462662c30783462392c30783462662c30783462392c30783462662c30783462392c30783462662c30783462392c3078313030382c3078313030352c3078313030382c3078313030352c3078313030382c3078313030352c,
  0x2020202030783463622c30783463622c30783463622c30783463622c30783463622c30783463622c30783463622c30783463622c30783463652c30783463652c30783463652c30783463652c30783463652c30783463652c30783463652c30783463652c,
  0x2020202030783463622c30783463622c30783463622c30783463622c30783463622c30783463622c30783463622c30783463622c30783463652c30783463652c30783463652c30783463652c30783463652c30783463652c30783463652c30783463652c,
  0x2020202030783661652c30783661652c30783662312c30783465392c30783662642c30783662612c30783662612c30783662372c30783531332c30783531332c30783464312c30783464312c30783464312c30783464312c30783464312c30786235382c,
  0x2020202030783663302c30783466352c30783664382c30783664622c30783530612c30783663302c30783466382c30783466382c30783465392c30783530342c30783530342c30783661652c30783531302c30783530642c30783662342c30783465332c,
  0x2020202030783464612c30783464612c30783464642c30783464642c30783464642c30783464642c30783464642c30783465302c30783464642c30783464642c30783464642c30783464342c30783531632c30783531392c30783531362c30783531362c,
  0x2020202030783663632c30783466652c30783466622c30783663392c30783663362c30783663332c30783664352c30783465632c30783664322c30783664322c30783530312c30783530342c30783663662c30783663662c30783530312c30783530342c,
  0x2020202030783465362c30783465392c30783465392c30783465392c30783530372c30783466322c30783465662c30786264632c30786166322c30786166352c30786165662c30786165662c30786165662c30786165662c30786264332c30786264332c,
  0x2020202030786264332c30786264332c30786264392c30786430652c30786430622c30786466352c30786466382c30786264362c30786466382c30786466382c30786466382c30786466382c30786466352c30786466382c30786466382c30786264302c,
  0x2020202030783534302c30783534302c30783534302c30783534302c30783534302c30783534302c30783534302c30783533642c30783534332c30783735632c30783534302c30783963302c30783965312c30786166382c30786166382c30786166382c,
  0x2020202030786265322c30786265322c30786466652c30786466652c30786466652c30786466652c3078313137392c3078313137632c3078313137632c3078313335632c3078313466342c3078313531652c3078313532312c3078313532312c3078313733342c3078313862312c,
  0x2020202030783534662c30783534662c30783536372c30783665612c30783534632c30783665372c30783534662c30783536342c30783534632c30783665612c30783535652c30783536372c30783536372c30783536372c30783535652c30783535652c,
  0x2020202030783536372c30783536372c30783536372c30783666332c30783534632c30783536372c30783665642c30783534632c30783535622c30783536372c30783536372c30783536372c30783536372c30783536372c30783534632c30783534632c,
  0x2020202030783535322c30783665372c30783666302c30783534632c30783536372c30783534632c30783666362c30783534632c30783536372c30783535352c30783536642c30783666392c30783536372c30783536372c30783535382c30783535652c,
  0x2020202030783536372c30783536372c30783536612c30783536372c30783535652c30783536312c30783536312c30783536312c30783536312c30786230342c30786230312c30786431312c30786530372c30786266372c30786266612c30786266612c,
  0x2020202030786266342c30786266312c30786266312c30786266312c30786266312c30786266612c30786266372c30786266372c30786266372c30786266372c30786265652c30786266312c30786530342c30786631382c30786631622c3078313030652c,
  0x202020203078313137662c3078313137662c3078313137662c30783666662c30783666632c30783537302c30783537332c30783537332c30783537332c30783537332c30783537332c30783666632c30783666662c30783666662c30783666632c30783537332c,
  0x2020202030783730352c30783730352c30783730352c30783730352c30783730352c30783730352c30783730352c30783730352c30783730352c30783730352c30783730352c30783730352c30783537632c30783537632c30783537632c30783537632c,
  0x2020202030783730322c30783730322c30783730322c30783730322c30783730322c30783730322c30783730322c30783730322c30783730322c30783730322c30783537362c30783537362c30783537362c30783537362c30783537362c30783537362c,
  0x2020202030783538322c30783538322c30783538322c30783538322c30783538322c30783538322c30783538322c30783538322c30783537662c30783538382c30783538382c30783538322c30783538322c30783538322c30783538352c30783537662c,
  0x2020202030783538322c30783538322c30783537662c30783537662c30783537662c30783537662c30783538322c30783538322c30783730382c30783730382c30783537662c30783537662c30783538322c30783538322c30783538322c30783538322c,
  0x2020202030783538322c30783538322c30783538322c30783538322c30783538322c30783538322c30783538322c30783538322c30783538322c30783538352c30783538352c30783538352c30783538322c30783538322c30783730622c30783538322c,
  0x2020202030783730622c30783538322c30783538322c30783538322c30783538322c30783538322c30783538322c30783538322c30783537662c30783538322c30783537662c30783537662c30783537662c30783537662c30783537662c30783537662c,
  0x2020202030783538322c30783538322c30783537662c30783730382c30783537662c30783537662c30783537662c30786230612c30786230612c30786230612c30786230612c30786230612c30786230612c30786230612c30786230612c30786230612c,
  0x2020202030786266642c30786266642c30786266642c30786266642c30786266642c30786266642c30786266642c30786266642c30786266642c30786266642c30786266642c30786266642c30783731312c30783538622c30783731312c30783731312c,
  0x2020202030783538652c30783538622c30783538622c30783731312c30783731312c30783538652c30783538622c30783731312c30783538652c30783538622c30783538622c30783731312c30783538622c30783731312c30783539612c30783539372c,
  0x2020202030783538622c30783731312c30783538622c30783538622c30783538622c30783538622c30783731312c30783538622c30783538622c30783731312c30783731312c30783731312c30783731312c30783538622c30783538622c30783731312c,
  0x2020202030783538652c30783731312c30783538652c30783731312c30783731312c30783731312c30783731312c30783731312c30783731372c30783539312c30783731312c30783539312c30783539312c30783538622c30783538622c30783538622c,
  0x2020202030783731312c30783731312c30783731312c30783731312c30783538622c30783538622c30783538622c30783538622c30783731312c30783731312c30783538622c30783538622c30783538622c30783538652c30783538622c30783538622c,
  0x2020202030783538652c30783538622c30783538622c30783538652c30783731312c30783538652c30783538622c30783538622c30783731312c30783538622c30783538622c30783538622c30783538622c30783538622c30783731312c30783538622c,
  0x2020202030783538622c30783538622c30783538622c30783538622c30783538622c30783538622c30783538622c30783538622c30783538622c30783538622c30783538622c30783538622c30783731342c30783731312c30783538652c30783538622c,
  0x2020202030783731312c30783731312c30783731312c30783731312c30783538622c30783538622c30783731312c30783731312c30783538622c30783538652c30783731342c30783731342c30783538652c30783538652c30783538622c30783538622c,
  0x2020202030783538652c30783538652c30783538622c30783538622c30783538652c30783538652c30783538622c30783538622c30783538622c30783538622c30783538622c30783538622c30783538652c30783538652c30783731312c30783731312c,
  0x2020202030783538652c30783538652c30783731312c30783731312c30783538652c30783538652c30783538622c30783538622c30783538622c30783538622c30783538622c30783538622c30783538622c30783538622c30783538622c30783538622c,
  0x2020202030783538622c30783731312c30783538622c30783538622c30783538622c30783731312c30783538622c30783538622c30783538622c30783538622c30783538622c30783538622c30783538622c30783731312c30783538622c30783538622c,
  0x2020202030783538622c30783538622c30783538622c30783538622c30783538652c30783538652c30783538652c30783538652c30783538622c30783538622c30783538622c30783538622c30783538622c30783538622c30783538622c30783538622c,
  0x2020202030783538622c30783538622c30783538622c30783538622c30783538622c30783538622c30783538622c30783731312c30783538622c30783538622c30783538622c30783538622c30783538622c30783538622c30783538622c30783538622c,
  0x2020202030783538622c30783538622c30783538622c30783538622c30783538622c30783538622c30783538622c30783538622c30783538622c30783538622c30783538622c30783538622c30783538622c30783538622c30783538622c30783538622c,
  0x2020202030783538622c30783538622c30783538622c30783538622c30783538622c30783538622c30783538622c30783538622c30783538652c30783538652c30783538652c30783538652c30783538622c30783538622c30783538622c30783538622c,
  0x2020202030783538622c30783538622c30783538652c30783538652c30783538652c30783538652c30783538622c30783539342c30783538622c30783538622c30786330302c30786330302c30786330302c30786330302c30786330302c30786330302c,
  0x2020202030786330302c30786330302c30786330302c30786330302c30786330302c30786330302c30786330302c30786330302c30783539642c30786230642c30783539642c30783539642c30783539642c30783539642c30783539642c30783539642c,
  0x2020202030783561392c30783561362c30783561392c30783561362c30783539642c30783539642c30783539642c30783539642c30783539642c30783539642c30783731612c30783539642c30783539642c30783539642c30783539642c30783539642c,
  0x2020202030783539642c30783539642c30783831662c30783831662c30783539642c30783539642c30783539642c30783539642c30783561332c30783561332c30783539642c30783539642c30783539642c30783539642c30783539642c30783539642c]

/-- UnicodeData/CharPropsData.py:2690-2945 the lines. -/
def charText13 : List Nat :=
 [0x2020202030783561302c30783832352c30783832322c30783539642c30783539642c30783539642c30783539642c30783539642c30783539642c30783539642c30783539642c30783539642c30783539642c30783539642c30783539642c30783539642c,
  0x2020202030783539642c30783539642c30783539642c30783539642c30783539642c30783539642c30783539642c30783539642c30783539642c30783539642c30783539642c30783539642c30783539642c30783539642c30783539642c30783539642c,
  0x2020202030783539642c30783539642c30783539642c30783539642c30783539642c30783539642c30783539642c30786230642c30786330362c30786230642c30786230642c30786230642c30783561632c30783561632c30783561632c30783561632c,
  0x2020202030783561632c30783561632c30783561632c30783561632c30783561632c30783561632c30783561632c30783561632c30783561632c30783561632c30783561632c30783561632c30783561632c30783561632c30783561632c30783561632c,
  0x2020202030783561632c30783561632c30783561632c30783561632c30783561632c30783561632c30783561632c30783561632c30783561632c30783561632c30783561632c30783561632c30783732332c30783732332c30783732332c30783732332c,
  0x2020202030783732332c30783732332c30783732332c30783732332c30783732332c30783732332c30783562322c30786336662c30786336662c30786336662c30786336662c30786336662c30786336662c30786336662c30786336662c30786336662c,
  0x2020202030786336662c30786336662c30786336662c30786336662c30786336662c30786336662c30786336662c30786336662c30786336662c30786336662c30786336662c30786438392c30783732632c30783732632c30783732632c30783732632c,
  0x2020202030783732632c30783732632c30783732632c30783732632c30783732632c30783732632c30783732632c30783732632c30783732632c30783732632c30783732632c30783732632c30783732632c30783732632c30783732632c30783732632c,
  0x2020202030783562352c30783562382c30783562382c30783562382c30783562382c30783562382c30783562382c30783562382c30783562382c30783562382c30783562382c30783562382c30783732632c30783732632c30783732632c30783732632c,
  0x2020202030783732632c30783732632c30783732632c30783732632c30783732632c30783732632c30783732632c30783732632c30783562382c30783562382c30783562382c30783562382c30783732632c30783732632c30783732632c30783732632c,
  0x2020202030783732632c30783732632c30783732632c30783732632c30783732632c30783732632c30783732632c30783732632c30783732632c30783732632c30783732632c30783732632c30783732662c30783732662c30783732662c30783732662c,
  0x2020202030783732662c30783732662c30783732662c30783732662c30783732662c30783732662c30783732662c30783732662c30783732662c30783732662c30783732662c30783732662c30783562622c30783562622c30783732662c30783732662c,
  0x2020202030783732662c30783732662c30786330392c30786330392c30786330392c30786330392c30786330392c30786330392c30786330392c30786330392c30786330392c30786330392c30783733352c30783733352c30783562652c30783733322c,
  0x2020202030783733322c30783733322c30783733322c30783733322c30783733322c30783733322c30783563312c30783563312c30783562652c30783562652c30783563342c30783563342c30783563342c30783563342c30783733352c30783733352c,
  0x2020202030783563342c30783563342c30783733382c30783733352c30783562652c30783562652c30783562652c30783562652c30783733352c30783733352c30783563342c30783563342c30783733382c30783733352c30783562652c30783562652c,
  0x2020202030783562652c30783562652c30783733352c30783733352c30783733322c30783562652c30783563342c30783733352c30783562652c30783562652c30783733322c30783733352c30783733352c30783733352c30783563342c30783563342c,
  0x2020202030783562652c30783562652c30783562652c30783562652c30783562652c30783562652c30783562652c30783562652c30783562652c30783562652c30783562652c30783562652c30783562652c30783562652c30783733352c30783733322c,
  0x2020202030783733352c30783733322c30783562652c30783563342c30783563342c30783563342c30783563342c30783563342c30783563342c30783562652c30783562652c30783733322c30786231362c30786231362c30786231362c30786231362c,
  0x2020202030786231362c30786231362c30786231362c30786231362c30786330632c30786330632c30786330632c30786330662c30786330662c30786338612c30786338612c30786330632c30783564332c30783564332c30783564332c30783564332c,
  0x2020202030783564302c30783734612c30783734372c30783563612c30783563612c30783733622c30783563612c30783563612c30783563612c30783563612c30783734312c30783733622c30783563612c30783564302c30783563612c30783563372c,
  0x2020202030786439322c30786439322c30786331352c30786331352c30786531332c30786231392c30783563642c30783563642c30783733652c30783564362c30783733652c30783563642c30783564302c30783563612c30783564302c30783564302c,
  0x2020202030783563612c30783563612c30783564302c30783563612c30783563612c30783563612c30783564302c30783563612c30783563612c30783563612c30783564302c30783564302c30783563612c30783563612c30783563612c30783563612c,
  0x2020202030783563612c30783563612c30783563612c30783563612c30783564302c30783564332c30783564332c30783563642c30783563612c30783563612c30783563612c30783563612c30783734642c30783563612c30783734642c30783563612c,
  0x2020202030783563612c30783563612c30783563612c30783563612c30783832382c30783832382c30783832382c30783832382c30783832382c30783832382c30783832382c30783832382c30783832382c30783832382c30783832382c30783832382c,
  0x2020202030783563612c30783563612c30783563612c30783563612c30783563612c30783563612c30783563612c30783563612c30783563612c30783563612c30783563612c30783564302c30783734642c30783734612c30783564392c30783734642c,
  0x2020202030783733622c30783734312c30783564302c30783733622c30783734342c30783733622c30783733622c30783563612c30783733622c30783734612c30783564392c30783734612c30786231392c30786231392c30786331382c30786331382c,
  0x2020202030786331382c30786331382c30786331382c30786331382c30786331382c30786331382c30786331382c30786331622c30786331382c30786331382c30786531302c30786563372c30783564632c30783564632c30783564632c30783564632c,
  0x2020202030783564632c30783564632c30783564632c30783564632c30783564632c30783564632c30783564632c30783564632c30783564632c30783564632c30783564632c30783564632c30783564632c30783564632c30783564632c30783564632c,
  0x2020202030783564662c3078313365362c3078313365362c3078313365362c30783564662c30783564662c30783564662c30783564662c30783564662c30783564662c30783564662c30783564662c3078313532612c30783565622c30783566342c30783565622c,
  0x2020202030783565622c3078313365362c30783564662c30783564662c30783566342c30783566342c3078313365392c3078313365392c30783566372c30783566372c30783565382c30783565652c30783565382c30783565382c30783565652c30783564662c,
  0x2020202030783565652c30783564662c30783565652c30783564662c30783564662c30783564662c30783564662c30783564662c30783564662c30783565652c30783564662c30783564662c30783564662c30783564662c30783564662c30783564662c,
  0x202020203078313365362c30783564662c30783564662c30783564662c30783564662c30783564662c30783564662c30783564662c30783564662c30783564662c30783564662c30783565652c30783565652c30783564662c30783564662c30783564662c,
  0x2020202030783564662c30783564662c30783564662c30783564662c30783564662c30783735332c30783564662c30783564662c30783564662c30783564662c30783564662c30783564662c30783565652c30783564662c30783564662c30783565652c,
  0x2020202030783564662c30783564662c30783564662c30783564662c3078313365362c30783564662c3078313365362c30783564662c30783564662c30783564662c30783564662c3078313365362c3078313365362c3078313365362c30783564662c3078313264652c,
  0x2020202030783564662c30783564662c30783564662c30783565352c30783565352c30783565352c30783565352c3078313336382c3078313336382c30783564662c30783565322c30783566312c30783566342c30783565382c30783565382c30783565382c,
  0x2020202030786332312c30786331652c30786332312c30786331652c30786332312c30786331652c30786332312c30786331652c30786332312c30786331652c30786332312c30786331652c30786332312c30786331652c30783735302c30783735302c,
  0x2020202030783735302c30783735302c30783735302c30783735302c30783735302c30783735302c30783735302c30783735302c30783564662c30783565652c30783564662c30783564662c30783564662c30783564662c30783564662c30783564662c,
  0x2020202030783564662c30783564662c30783564662c30783564662c30783564662c30783564662c30783564662c30783564662c3078313365362c30783564662c30783564662c30783564662c30783564662c30783564662c30783564662c30783564662c,
  0x2020202030783564662c30783564662c30783564662c30783564662c30783564662c30783564662c30783564662c3078313365362c30783631382c30783631382c30783631382c30783631382c30783631382c30783631382c30783631382c30783631382c,
  0x2020202030783631382c30783631382c30783631382c30783631382c30783631382c30783631622c30783631622c30783631622c30783631622c30783631622c30783631622c30783631622c30783632312c30783632312c30783632312c30783632312c,
  0x2020202030783632312c30783632312c30783632312c30783632312c30783631382c30783631652c30783630662c30783631322c30783631652c30783631652c30783631652c30783631652c30783631652c30783631652c30783631652c30783631652c,
  0x2020202030783631652c30783631652c30783631652c30783631652c30783631652c30783631652c30783631652c30783631652c30783631652c30783631652c30783631652c30783631652c30783631652c30783631652c30783631652c30783631652c,
  0x2020202030783631652c30783631652c30783631652c30783631652c30783631652c30783631652c30783631352c30783631352c30783631352c30783631352c30783631352c30783631352c30783631382c30783631382c30783631382c30783631382c,
  0x2020202030783631382c30783631382c30783631382c30783631382c30783631382c30783631382c30783631382c30783631382c30783631382c30783631382c30783631382c30783631382c30783631382c30783631382c30783631382c30783631382c,
  0x2020202030783631382c30783631382c30783631382c30783631382c30783631382c30783631382c30783631382c30783631382c30783631622c30783632312c30783631652c30783631382c30783631622c30783632312c30783631652c30783631382c,
  0x2020202030783631622c30783632312c30783631652c30783631382c30783631622c30783632312c30783631652c30783631382c30783631622c30783632312c30783631652c30783631382c30783631622c30783632312c30783631652c30783631382c,
  0x2020202030783631622c30783632312c30783631652c30783631382c30783631622c30783632312c30783631652c30783631382c30783631652c30783631382c30783631652c30783631382c30783631652c30783631382c30783631652c30783631382c,
  0x2020202030783631652c30783631382c30783631652c30783631382c30783631622c30783632312c30783631652c30783631382c30783631622c30783632312c30783631652c30783631382c30783631622c30783632312c30783631652c30783631382c,
  0x2020202030783631622c30783632312c30783631652c30783631382c30783631652c30783631382c30783631622c30783632312c30783631652c30783631382c30783631652c30783631382c30783631622c30783632312c30783631652c30783631382c,
  0x2020202030783631622c30783632312c30783631652c30783631382c30783631652c30783631382c3078313336622c3078313336622c3078313336622c3078313336622c3078313336622c3078313336622c3078313336622c3078313336622c3078313336622c3078313336622c,
  0x202020203078313336622c3078313336622c3078313336622c3078313336622c30783631652c30783631382c30783631652c30783631382c30783631652c30783631382c30783631622c30783632312c30783631622c30783632312c30783631652c30783631382c,
  0x2020202030783631652c30783631382c30783631652c30783631382c30783631652c30783631382c30783631652c30783631382c30783631652c30783631382c30783631652c30783631382c30783631622c30783631652c30783631382c30783631622c,
  0x2020202030783631652c30783631382c30783631622c30783632312c30783631382c30783631382c30783631382c30783631382c30783631382c30783631382c30783631382c30783631382c30783631382c30783631382c30783631382c30783631382c,
  0x2020202030783631382c30783631382c30783631382c30783631382c30783631382c30783631382c30783631382c30783631382c30783631382c30783631382c30783631382c30783631622c30783631622c30783631622c30783631622c30783631622c,
  0x2020202030783631622c30783631622c30783631622c30783631622c30783631652c30783631652c30783631652c30783631652c30783631652c30783631652c30783631652c30783631652c30783631652c30783631652c30783631652c30783631652c,
  0x2020202030783631652c30783631652c30783631652c30783631652c30783631652c30783631382c30783631382c30783631382c30783631382c30783631382c30783631382c30783631382c30783631382c30783631382c30783631382c30783631382c,
  0x2020202030783631382c30783631382c30783631382c30783631382c30783631622c30783631622c30783631382c30783631622c30783631382c30783631622c30783631382c30783631382c30783631622c30783631382c30783631382c30783631622c,
  0x2020202030783631382c30783631622c30783631382c30783631382c30783631622c30783631382c30783631622c30783631622c30783631382c30783631382c30783631382c30783631622c30783631382c30783631382c30783631382c30783631382c,
  0x2020202030783631382c30783631622c30783631382c30783631382c30783631382c30783631382c30783631382c30783631382c30783631382c30783631382c30783631382c30783631382c30783631382c30783631382c30783631382c30783631382c,
  0x2020202030783631382c30783631382c30783631382c30783631382c30783631382c30783631382c30783631382c30783631382c30783631622c30783631622c30783631382c30783631382c30783631622c30783631382c30783631622c30783631382c,
  0x2020202030783631382c30783631382c30783631382c30783631382c30783631622c30783631622c30783631622c30783631622c30783631622c30783631622c30783631622c30783631622c30783631622c30783631622c30783631622c30783631622c,
  0x2020202030783631622c30783631622c30783631622c30783631622c30783631622c30783631622c30783631622c30783631622c30783631622c30783631622c30783631622c30783631622c30783631622c30783631622c30783631622c30783631622c,
  0x2020202030783631622c30783631622c30783631622c30783631622c30783631622c30783631622c30783631622c30783632312c30783631652c30783631652c30783631652c30783631652c30783631652c30783631652c30783631652c30783631652c,
  0x2020202030783631652c30783631652c30783631652c30783631652c30783631652c30783631652c30783631652c30783631652c30783631652c30783631652c30783631652c30783631652c30783631652c30783631652c30783631652c30783631652c,
  0x2020202030783631652c30783631652c30783631652c30783631652c30783631652c30783631652c30783631652c30783631652c30783632312c30783632312c30783632312c30783632312c30783632312c30783632312c30783632312c30783632312c,
  0x2020202030783632312c30783632312c30783632312c30783632312c30783632312c30783632312c30783632312c30783632312c30783632312c30783632312c30783632312c30783632312c30783632312c30783631652c30783631652c30783631652c,
  0x2020202030783631652c30783631652c30783631652c30783631652c30783631652c30783631652c30783631652c30783631652c30783632342c30783632342c30783632342c30783632342c3078313031612c3078313031612c3078313031612c3078313532642c,
  0x202020203078313532642c3078313532642c3078313532642c3078313532642c3078313532642c3078313532642c3078313733612c3078313733612c30783838352c30783838622c30783838622c30783839372c30783839372c30783838382c30783837662c30783838382c,
  0x2020202030783837662c30783838382c30783837662c30783838382c30783837662c30783838382c30783837662c30783838382c30783633332c30783633332c30783632642c30783633332c30783632642c30783633332c30783632642c30783633332c,
  0x2020202030783632642c30783633332c30783632642c30783633302c30783633362c30783633332c30783632642c30783633332c30783632642c30783633302c30783633362c30783633332c30783632642c30783633332c30783632642c30783633302c,
  0x2020202030783633362c30783633332c30783632642c30783633302c30783633362c30783633332c30783632642c30783633302c30783633362c30783633332c30783632642c30783633332c30783632642c30783633332c30783632642c30783633332c,
  0x2020202030783632642c30783633332c30783632642c30783633302c30783633362c30783633332c30783632642c30783633302c30783633362c30783633332c30783632642c30783633302c30783633362c30783633332c30783632642c30783633302c,
  0x2020202030783633362c30783633332c30783632642c30783633302c30783633362c30783633332c30783632642c30783633302c30783633362c30783633332c30783632642c30783633302c30783633362c30783633332c30783632642c30783633302c,
  0x2020202030783633362c30783633332c30783632642c30783633302c30783732302c30783732302c30783732302c30783732302c30783732302c30783732302c30783732302c30783732302c30783732302c30783732302c30783732302c30783732302c,
  0x2020202030783732302c30783732302c30783732302c30783732302c30783732302c30783732302c30783732302c30783732302c30783731642c30783731642c30783731642c30783731642c30783731642c30783731642c30783731642c30783731642c,
  0x2020202030783731642c30783731642c30783731642c30783731642c30783731642c30783731642c30783731642c30783731642c30783731642c30783731642c30783731642c30783731642c30783731642c30783731642c30783731642c30783731642c,
  0x2020202030783731642c30783731642c30783731642c30783731642c30783731642c30783731642c30783731642c30783731642c30783731642c30783731642c30783732362c30783732362c30783732362c30783732362c30783732362c30783732362c,
  0x2020202030783732362c30783732362c30783732362c30783732362c30783732362c30783732362c30783732392c30783732362c30783732362c30783732362c30783732362c30783732362c30783732362c30783732362c30783732362c30783732362c,
  0x2020202030783732362c30783732362c30783732362c30783732362c30783732332c30783732332c30783732332c30783732332c30783732332c30783732332c30783732332c30783732332c30783732332c30783732332c30783732332c30783732332c,
  0x2020202030783732332c30783732332c30783732332c30783732332c30783732632c30783732632c30783732632c30783732632c30783732632c30783732632c30783732632c30783732632c30783732632c30783732632c30783732632c30783732632c,
  0x2020202030783732632c30783732632c30783732632c30783732632c30783732632c30783732632c30783732632c30783732632c30783732632c30783732632c30783732632c30783732632c30783732632c30783732632c30783732632c30783732632c,
  0x2020202030783732632c30783732632c30783732632c30783732632c30783735362c30783735362c30783735362c30783735362c30783735362c30783735362c30783735362c30783735362c30783735362c30783735362c30783735362c30783735362c,
  0x2020202030783735362c30783735362c30783735362c30783735362c30783735362c30783735362c30783735362c30783735362c30783735362c30783735362c30783735362c30783735362c30783735362c30783735362c30783735362c30783735362c,
  0x2020202030783735362c30783735362c30783735362c30783735362c30786337382c30783865382c30783865322c30783864662c30783865352c30783864632c30783736622c30783736652c30783736652c30783736652c30783736652c30783736652c,
  0x2020202030783736652c30783736652c30783736652c30783736652c30783865652c30783736622c30783736622c30783736622c30783736622c30783736622c30783736622c30783736622c30783736622c30783736622c30783736622c30783736622c,
  0x2020202030783736622c30783736622c30783736622c30783736622c30783736622c30783736622c30783736622c30783736622c30783736622c30783736622c30783736622c30783736622c30783736622c30783736622c30783736622c30783736622c,
  0x2020202030783736622c30783736622c30783736622c30783736622c30783736622c30783736622c30783865622c30783865622c30783737312c30783866642c30783930302c30783930362c30783832622c30783833372c30783931622c30783833342c,
  0x2020202030783866342c30783866312c30783866342c30783866312c30783866612c30783866372c30783866612c30783866372c30783866342c30783866312c30783833312c30783930362c30783866342c30783866312c30783866342c30783866312c,
  0x2020202030783866342c30783866312c30783866342c30783866312c30783930392c30783931322c30783930662c30783930662c30783737372c30783762332c30783762332c30783762332c30783762332c30783762332c30783762332c30783761642c,
  0x2020202030783761642c30783761642c30783761642c30783761642c30783761642c30783761642c30783761642c30783761642c30783761642c30783761642c30783761642c30783761642c30783761642c30783761642c30783761642c30783761642c,
  0x2020202030783761642c30783761642c30783761642c30783737612c30783739352c30783737342c30783739622c30783739652c30783739382c30783762302c30783762302c30783762302c30783762302c30783762302c30783762302c30783761612c,
  0x2020202030783761612c30783761612c30783761612c30783761612c30783761612c30783761612c30783761612c30783761612c30783761612c30783761612c30783761612c30783761612c30783761612c30783761612c30783761612c30783761612c,
  0x2020202030783761612c30783761612c30783761612c30783737612c30783739352c30783737342c30783739352c30786337622c30783831392c30783831392c30783831392c30783831392c30783831392c30783831392c30783831392c30783831392c,
  0x2020202030783831392c30783831392c30783831392c30783831392c30783831392c30783831392c30783831392c30783831392c30783831392c30783831392c30783831392c30783831392c30783831392c30783831392c30783831392c30783831392c,
  0x2020202030783831392c30783831392c30783831392c30783831392c30783831392c30783831392c30783831392c30783831392c30783831392c30783831392c3078313264382c3078313264382c3078313264382c3078313264382c3078313264382c30783831632c,
  0x2020202030783833312c30783833342c30783833342c30783833342c30783833342c30783833342c30783833342c30783833342c30783833342c30783833342c30783935312c30783935312c30783935312c30783935312c30783833612c30783833612c,
  0x2020202030783930632c30783931382c30783931382c30783931382c30783931382c30783931352c30783832652c30783930332c30786233642c30786233642c30786233642c30786338642c30786361622c30786361382c30786235622c30783864392c,
  0x2020202030783834302c30783833642c30783834302c30783834332c30783833642c30783834302c30783833642c30783834302c30783833642c30783834302c30783833642c30783833642c30783833642c30783833642c30783833642c30783833642c,
  0x2020202030783834302c30783834302c30783833642c30783834302c30783834302c30783833642c30783834302c30783834302c30783833642c30783834302c30783834302c30783833642c30783834302c30783834302c30783833642c30783833642c,
  0x2020202030786361652c30783835322c30783834632c30783835322c30783834632c30783835322c30783834632c30783835322c30783834632c30783835322c30783834632c30783834632c30783834662c30783834632c30783834662c30783834632c,
  0x2020202030783834662c30783834632c30783834662c30783834632c30783834662c30783834632c30783834662c30783834632c30783834662c30783834632c30783834662c30783834632c30783834662c30783834632c30783834662c30783834632c,
  0x2020202030783834662c30783834632c30783834662c30783835322c30783834632c30783834662c30783834632c30783834662c30783834632c30783834662c30783834632c30783834632c30783834632c30783834632c30783834632c30783834632c,
  0x2020202030783834662c30783834662c30783834632c30783834662c30783834662c30783834632c30783834662c30783834662c30783834632c30783834662c30783834662c30783834632c30783834662c30783834662c30783834632c30783834632c,
  0x2020202030783834632c30783834632c30783834632c30783835322c30783834632c30783835322c30783834632c30783835322c30783834632c30783834632c30783834632c30783834632c30783834632c30783834632c30783835322c30783834632c,
  0x2020202030783834632c30783834632c30783834632c30783834632c30783834662c30783835322c30783835322c30783834662c30783834662c30783834662c30783834662c30783932312c30783932342c30783835352c30783835382c30786339362c,
  0x2020202030783835652c30783835652c30783835652c30783835652c30783835652c30783835652c30783835652c30783835652c30783835652c30783835652c30783835652c30783835652c30783835652c30783835652c30783835652c30783835652c,
  0x2020202030783835652c30783835652c30783835652c30783835652c30783835652c30783835652c30783835652c30783835652c30783835652c30783835652c30783835652c30783835652c30783835652c30783835652c30783835652c30783835652c,
  0x2020202030783836312c30783835652c30783835652c30783835652c30783835652c30783835652c30783835652c30783835652c30783835652c30783835652c30783835652c30783835652c30783835652c30783835652c30783835652c30783835652c,
  0x2020202030783835652c30783835652c30783835652c30783835652c30783835652c30783835652c30783835652c30783835652c30783835652c30783835652c30783835652c30783835652c30783836612c30783836612c30783836612c30783836612c,
  0x2020202030783836612c30783836612c30783836612c30783836612c30783836612c30783836612c30783836612c30783836612c30783836612c30783836612c30783836612c30783836612c30783836612c30783836612c30783836612c30783836612c,
  0x2020202030783836612c30783836612c30783836612c30783836612c30783836612c30783836612c30783836612c30783836612c30786439622c30786439622c30786563612c30783836342c30783932642c30783932642c30783932642c30783932642c,
  0x2020202030783932642c30783932642c30783932642c30783932642c30783932642c30783932642c30783932642c30783932642c30786439352c30786439352c30786439352c30786439352c30783836642c30783836642c30783836642c30783836642c,
  0x2020202030783836642c30783836642c30783836642c30783836642c30783836642c30783836642c30783836642c30783836642c30783836642c30783836642c30783836642c30783836642c30783836642c30783836642c30783836642c30783836642c,
  0x2020202030783836642c30783836642c30783836642c30783836642c30783836642c30783836642c30783836642c30783836642c30783836642c30783836642c30783836642c3078316162322c30783933362c30783933362c30783933362c30783933362c,
  0x2020202030783933362c30783933362c30783933362c30783933362c30783933362c30783933362c30783933362c30783933362c30783933362c30783933362c30783933362c30783933362c30783933362c30783837302c30783837302c30783837302c,
  0x2020202030783837302c30783837302c30783837302c30786439652c30786439652c30786439652c30786439652c30783933392c30783933392c30783933392c30783933392c30783933392c30783837302c30783837302c30783837302c30783837302c,
  0x2020202030783837302c30783837302c30783837302c30783837302c30783837302c30783837302c30783837302c30783837302c30783837302c30783837302c30783837302c30783837302c30783837302c30783837302c30783837302c30783837302c,
  0x2020202030783837302c30783837302c30783837302c30783837302c30783837302c30783837302c30783837302c30783837302c30783837302c30783837302c30783837302c30783837302c30783837302c30783837302c30786439652c30786439652c,
  0x2020202030783837332c30783837332c30783837332c30783837332c30783837332c30783837332c30783837332c30783837332c30783837332c30783837332c30783837332c30783837332c30783837332c30783837332c30783837332c30783837332c,
  0x2020202030783837332c30783837332c30783837332c30783837332c30783837332c30783837332c30783837332c30783837332c30783837332c30783837332c30783837332c30783837332c30783837332c30783837332c30783837332c30783837332c,
  0x2020202030783933362c30783933362c30783933362c30783933362c30783933362c30783933362c30783933362c30783933362c30783837362c30783837362c30783837362c30783837362c30783837362c30783837362c30783837362c30783837362c,
  0x2020202030783837362c30783837362c30783837362c30783837362c30783837362c30783837362c30783837362c30783837362c30783837362c30783837362c30783837362c30783837362c30783837362c30783837362c30783837362c30783837362c,
  0x2020202030783837362c30783837362c30783837362c30783837362c30783837362c30783837362c30783837362c30783837362c30783837362c30783837362c30786563642c30786563642c30786563642c30786563642c30786563642c30786563642c,
  0x2020202030786563642c30786563642c30786563642c30786563642c30786563642c30786563642c30786563642c30786563642c30786563642c30786563642c30786563642c30786563642c30786563642c30786563642c30786563642c30786563642c,
  0x202020203078313133642c3078313133642c3078313133642c3078313133642c30783837392c30783837392c30783837392c30783837392c30783837392c30783837392c30783837392c30783837392c30783837392c30783837392c30783837392c30783837392c,
  0x2020202030783837392c30783837392c30783837392c30783837392c30783837392c30783837392c30783837392c30783837392c30783837392c30783837392c30783837392c30783837392c30783837392c30783837392c30783837392c30783837392c,
  0x2020202030783837392c30783837392c30783837392c30783837392c30783837392c30783837392c30783837632c30783837632c30783837392c30783837632c30783837392c30783837632c30783837632c30783837392c30783837392c30783837392c,
  0x2020202030783837392c30783837392c30783837392c30783837392c30783837392c30783837392c30783837392c30783837632c30783837392c30783837632c30783837392c30783837632c30783837632c30783837392c30783837392c30783837632c,
  0x2020202030783837632c30783837632c30783837392c30783837392c30783837392c30783837392c3078313465352c3078313465352c30786339662c30786339662c30786339662c30786339662c30786339662c30786339662c30786339662c30786339662c,
  0x2020202030786339662c30786339662c30786339662c30786339662c30786339662c30786339662c30786339662c30786339662c30783932642c30783932642c30783932642c30783932642c30783932642c30783932642c30783932642c30783932642c,
  0x2020202030783932642c30783932642c30783932642c30783932642c30783932642c30783932642c30783932642c30783932642c30783932642c30783932642c30783932642c30783932642c30783932642c30783932642c30783932642c30783932642c,
  0x2020202030783932642c30783932642c30783932642c30783932642c30783932642c30783932642c30783932642c30783932642c3078313331642c3078313331642c3078313331642c3078313331642c3078313262642c3078313262642c3078313262642c3078313262642c,
  0x202020203078313262642c3078313262642c3078313262642c3078313262642c30786439352c30786339392c30786339392c30786339392c30786339392c30786339392c30786339392c30786339392c30786339392c30786339392c30786339392c30786339392c,
  0x2020202030786339392c30786339392c30786339392c30786339392c30783933302c30783933302c30783933302c30783933302c30783933302c30783933302c30783933302c30783933302c30783933302c30783933302c30783933302c30783933302c,
  0x2020202030783933302c30783933302c30783933302c30783933302c30783933302c30783933302c30783933302c30783933302c30783933302c30783933302c30783933302c30783933332c30783933302c30783933332c30783933302c30783933302c,
  0x2020202030783933302c30783933302c30783933302c30783933302c30783933302c30783933302c30783933302c30783933302c30783933302c30783933302c30783933302c30783933302c30783933302c30783933302c30783933302c30783933302c,
  0x2020202030783933302c30786339392c30786339392c30786339392c30786339392c30786339392c30786339392c30786339392c30786339392c30786339392c30786339392c30786339392c30786339392c30786339392c30786339392c30786339392c,
  0x2020202030783933362c30783933362c30783933362c30783933362c30783933362c30783933362c30783933362c30783933362c30783933362c30783933362c30783933362c30783933362c30783933362c30783933362c30783933362c30783933362c,
  0x2020202030783933362c30783933362c30783933362c30783933362c30783933362c30783933362c30783933362c30783933362c30783933362c30783933362c30783933362c30783933362c30783933362c30783933362c30783933362c30786439652c,
  0x2020202030783962372c30783939392c30783939392c30783939392c30783939392c30783939332c30783939392c30783939392c30783961622c30783939392c30783939392c30783939362c30783961322c30783961382c30783961382c30783961382c,
  0x2020202030783961382c30783961382c30783961622c30783939332c30783939662c30783939332c30783939332c30783939332c30783938612c30783938612c30783939332c30783939332c30783939332c30783939332c30783939332c30783939332c,
  0x2020202030783961652c30783961652c30783961652c30783961652c30783961652c30783961652c30783961652c30783961652c30783961652c30783961652c30783939332c30783939332c30783939332c30783939332c30783939332c30783939332c,
  0x2020202030783939332c30783939332c30783939332c30783939332c30783939362c30783938612c30783939332c30783938612c30783939332c30783938612c30783961352c30783939632c30783961352c30783939632c30783962342c30783962342c,
  0x2020202030783963332c30783963332c30783963332c30783963332c30783963332c30783963332c30783963332c30783963332c30783963332c30783963332c30783963332c30783963332c30783963332c30783963332c30783963332c30783963332c,
  0x2020202030783963332c30783963332c30783963332c30783963332c30783963332c30783963332c30783963332c30783963332c30783963332c30783963332c30783963332c30783963332c30783963332c30783963332c30783963332c30783963332c,
  0x2020202030783963362c30783963362c30783963362c30783963362c30783963362c30783963362c30783963362c30783963362c30783963362c30783963362c30783963362c30783963362c30783963362c30783963362c30783963362c30783963362c,
  0x2020202030783963362c30783963362c30783963362c30783963362c30783963362c30783963362c30783963362c30783963362c30783963362c30783963362c30783963362c30783963362c30783963362c30783963362c30783963362c30783963362c,
  0x2020202030783963392c30783963392c30783963392c30783963392c30783963392c30783963392c30783963392c30783963392c30783963392c30783963392c30783963392c30783963392c30783963392c30783963392c30783963392c30783963392c,
  0x2020202030783963392c30783963392c30783963392c30783963392c30783963392c30783963392c30783963392c30783963392c30783963392c30783963392c30783963392c30783963392c30783963392c30783963392c30783963392c30783963392c,
  0x2020202030783964322c30783964322c30783964322c30783964322c30783964322c30783964322c30783964322c30783964322c30783964322c30783964322c30783964322c30783964322c30783964322c30783964322c30783964322c30783964322c,
  0x2020202030783964322c30783964322c30783964322c30783964322c30783964322c30783964322c30783964322c30783964322c30783964322c30783964322c30783964322c30783964322c30783964322c30783964322c30783963632c30783963632c,
  0x2020202030783964352c30783964352c30783964352c30783964352c30783964352c30783964352c30783964352c30783964352c30783964352c30783964352c30783964352c30783964352c30783964352c30783964352c30783964352c30783964352c,
  0x2020202030783964352c30783964352c30783964352c30783964352c30783964352c30783964352c30783964352c30783964352c30783964352c30783964352c30783964352c30783964352c30783964352c30783964352c30783963662c30783963662c,
  0x2020202030783964322c30783964322c30783964322c30783964322c30783964322c30783964322c30783964322c30783964322c30783964322c30783964322c30783964322c30783964322c30783964322c30783964322c30783964322c30783964322c,
  0x2020202030783964322c30783964322c30783964322c30783964322c30783964322c30783964322c30783964322c30783964322c30783964322c30783964322c30783964322c30783964322c30783964322c30783964322c30783964322c30783964322c,
  0x2020202030783964352c30783964352c30783964352c30783964352c30783964352c30783964352c30783964352c30783964352c30783964352c30783964352c30783964352c30783964352c30783964352c30783964352c30783964352c30783964352c,
  0x2020202030783964352c30783964352c30783964352c30783964352c30783964352c30783964352c30783964352c30783964352c30783964352c30783964352c30783964352c30783964352c30783964352c30783964352c30783964352c30783964352c,
  0x2020202030783964382c30783964622c30783964622c30783964622c30783964622c30783964622c30783964622c30783964622c30783964622c30783964622c30783964622c30783964622c30783964622c30783964622c30783964622c30783964622c,
  0x2020202030783964622c30783964622c30783964622c30783964622c30783964622c30783964622c30783964622c30783964622c30783964622c30783964622c30783964622c30783964622c30783964382c30783964622c30783964622c30783964622c,
  0x2020202030783964622c30783964622c30783964622c30783964622c30783964622c30783964622c30783964622c30783964622c30783964622c30783964622c30783964622c30783964622c30783964622c30783964622c30783964622c30783964622c,
  0x2020202030783964622c30783964622c30783964622c30783964622c30783964622c30783964622c30783964622c30783964622c30786136382c30786136382c30786666662c30786136382c30786136382c30786136382c30786136622c30786136382c,
  0x2020202030786666662c30786136382c30786136382c30786666362c30786136322c30786135362c30786135362c30786135362c30786135362c30786136352c30786135362c30786665372c30786665372c30786665372c30786135362c30786135392c,
  0x2020202030786136322c30786135632c30786665642c30786666392c30786666392c30786665372c30786665372c30786666662c30786236312c30786236312c30786236312c30786236312c30786236312c30786236312c30786236312c30786236312c,
  0x2020202030786236312c30786236312c30786136652c30786136652c30786135662c30786135662c30786135662c30786135662c30786136382c30786136382c30786136382c30786136382c30786136382c30786136382c30786136352c30786136352c,
  0x2020202030786135362c30786135362c30786666662c30786666662c30786666662c30786666662c30786665372c30786665372c30786136382c30786136382c30786136382c30786136382c30786136382c30786136382c30786136382c30786136382c,
  0x2020202030786136382c30786136382c30786136382c30786136382c30786136382c30786136382c30786136382c30786136382c30786136382c30786136382c30786136382c30786136382c30786136382c30786136382c30786136382c30786136382c,
  0x2020202030786136382c30786136382c30786136382c30786136382c30786136382c30786136382c30786136382c30786136382c30786137642c30786137642c30786137642c30786137642c30786137642c30786137642c30786137642c30786466322c,
  0x2020202030786137642c30786137642c30786137642c30786137642c30786137642c30786137642c30786137642c30786137642c30786137642c30786137642c30786137642c30786137642c30786137642c30786137642c30786137642c30786137642c,
  0x2020202030786137642c30786137642c30786137642c30786137642c30786137642c30786137642c30786137642c30786137642c30786137642c30786137642c30786137642c30786137642c30786137642c30786137642c30786137642c30786137642c,
  0x2020202030786137642c30786137642c30786137642c30786466322c30786137642c30786137642c30786137642c30786137642c30786137642c30786137642c30786137642c30786137642c30786137642c30786137642c30786137642c30786137642c,
  0x2020202030786137642c30786137642c30786137642c30786137642c30786138332c30786138332c30786138332c30786138332c30786138332c30786138332c30786138332c30786138332c30786138332c30786138332c30786138332c30786138332c,
  0x2020202030786138332c30786138332c30786138332c30786138332c30786138332c30786138332c30786138332c30786138332c30786138332c30786138332c30786138332c30786138332c30786138332c30786138332c30786138332c30786138332c,
  0x2020202030786138332c30786138332c30786138332c30786138332c30786138392c30786138392c30786138392c30786138392c30786138392c30786138392c30786138392c30786138392c30786138392c30786138392c30786138392c30786138392c,
  0x2020202030786138392c30786138362c30786138632c30786138392c30786138392c30786138392c30786138392c30786138392c30786138392c30786138392c30786138392c3078313137362c3078313137362c3078313137362c3078313137362c3078313137362c,
  0x202020203078313137362c3078313137362c3078313137362c3078313137362c3078313137332c30786138392c30786138392c30786138392c30786138392c30786138392c30786138392c30786138392c30786138392c30786138392c30786138392c30786138392c,
  0x2020202030786138392c30786138392c30786138392c30786138392c30786138392c30786138392c30786138392c30786138392c30786138392c30786138392c30786138392c30786138392c30786138392c30786138392c30786138392c30786138392c,
  0x2020202030786138392c30786138392c30786138392c30786138392c30786138392c30786138392c30786138392c30786138392c30786139652c30786139652c30786139652c30786139652c30786139652c30786139652c30786139652c30786139652c,
  0x2020202030786139652c30786139652c30786139652c30786139652c30786139652c30786139652c30786139652c30786139652c30786139652c30786139652c30786139652c30786139652c30786139652c30786139652c30786139652c30786139652c,
  0x2020202030786139652c30786139652c30786139652c30786139652c30786139652c30786139652c30786139652c30786139652c30786163322c30786163322c30786163322c30786163352c30786163352c30786163322c30786163322c30786163322c,
  0x2020202030786163322c30786163322c30786163322c30786163322c30786163322c30786163322c30786163322c30786163322c30786163322c30786163322c30786163322c30786163322c30786161612c30786161612c30786162662c30786161312c,
  0x2020202030786161312c30786161312c30786161312c30786161312c30786161312c30786161312c30786162662c30786162662c30786163322c30786163322c30786163322c30786163322c30786163322c30786163322c30786163322c30786163322c,
  0x2020202030786163322c30786163322c30786163322c30786163322c30786163322c30786163322c30786163322c30786163322c30786163322c30786163322c30786163322c30786163322c30786163322c30786163322c30786163322c30786163322c,
  0x2020202030786163322c30786163322c30786163322c30786163322c30786163322c30786163322c30786163322c30786163322c30786165332c30786165332c30786165332c30786165332c30786165332c30786163652c30786163652c30786165332c,
  0x2020202030786165332c30786165332c30786165332c30786165332c30786165332c30786165332c30786165332c30786165332c30786165332c30786165332c30786165332c30786165332c30786165332c30786165332c30786165332c30786165332c,
  0x2020202030786165332c30786165332c30786165332c30786165332c30786165332c30786165332c30786165332c30786165332c30786165332c30786165332c30786165332c30786165332c30786165332c30786165332c30786165332c30786165332c,
  0x2020202030786165332c30786165332c30786165332c30786165362c30786165332c30786165332c30786165332c30786165332c30786165332c30786165332c30786165332c30786165332c30786165332c30786165332c30786165332c30786165332c,
  0x2020202030786165332c30786165332c30786165332c30786165332c30786165332c30786165332c30786165332c30786165332c30786165332c30786165332c30786165332c30786165332c30786165332c30786165332c30786165332c30786165332c,
  0x2020202030786230642c30786230642c30786230642c30786230642c30786230642c30786230642c30786230642c30786230642c30786231302c30786230642c30786230642c30786230642c30786230642c30786230642c30786230642c30786230642c,
  0x2020202030786230642c30786230642c30786230642c30786230642c30786230642c30786230642c30786230642c30786230642c30786230642c30786230642c30786230642c30786330362c30786330362c30786330362c30786330362c30786330362c,
  0x2020202030786231632c30786231632c30786231632c30786231632c30786231632c30786231632c30786231632c30786231632c30786231632c30786231632c30786231632c30786231632c30786231632c30786231632c30786231632c30786231632c,
  0x2020202030786231632c30786231632c30786231632c30786231632c30786231632c30786231632c30786231632c30786231632c30786231632c30786231632c30786231632c30786231632c30786231632c30786231632c30786231632c30786231632c,
  0x2020202030786232652c30786232652c30786232652c30786232652c30786232652c30786232652c30786232652c30786232652c30786232652c30786232652c30786232652c30786232652c30786232652c30786232652c30786232652c30786232652c,
  0x2020202030786232652c30786232652c30786232652c30786232652c30786232652c30786232652c30786232652c30786232652c30786232652c30786232652c30786232652c30786232652c30786232652c30786232652c30786232652c30786232652c,
  0x2020202030786233342c30786233342c30786233342c30786233342c30786233342c30786233342c30786233342c30786233342c30786233342c30786233342c30786233342c30786233342c30786233342c30786233342c30786233342c30786233342c,
  0x2020202030786233342c30786233342c30786233342c30786233342c30786233342c30786233342c30786233342c30786233342c30786233342c30786233342c30786233342c30786233342c30786233342c30786233342c30786233342c30786233342c,
  0x2020202030786234302c30786234302c30786234302c30786234302c30786234302c30786234302c30786234302c30786234302c30786234302c30786234302c30786234302c30786234302c30786234302c30786234302c30786234302c30786234302c,
  0x2020202030786234302c30786234302c30786234302c30786234302c30786234302c30786234302c30786234302c30786234302c3078313365632c3078313365632c3078313365632c3078316232642c3078316232642c3078316232642c3078316232642c3078316232642c,
  0x2020202030786234332c30786234332c30786234332c30786234332c30786234332c30786234332c30786234332c30786234332c30786234332c30786234332c30786234332c30786234332c30786234332c30786234332c30786234332c30786234332c,
  0x2020202030786234332c30786234332c30786234332c30786234332c30786234332c30786234332c30786234332c30786234332c30786234332c30786234332c30786234332c30786234332c30786234332c30786234332c30786234332c30786234332c,
  0x2020202030786234332c30786234332c3078316233302c3078316233302c3078316233302c3078316233302c3078316233302c3078316233302c3078316233302c3078316233302c3078316233302c3078316233302c30786234362c30786234362c30786234362c30786234362c,
  0x2020202030786234362c30786234362c30786234362c30786234362c30786234362c30786234362c30786234362c30786234362c30786234362c30786234362c30786234362c30786234362c30786234362c30786234362c30786234362c30786234362c,
  0x2020202030786234362c30786234392c30786234362c30786234362c30786234362c30786234362c30786234362c30786234362c30786234362c30786234362c30786234362c30786234362c30786234362c30786234362c30786234362c30786234362c,
  0x2020202030786234362c30786234362c30786234362c30786234362c30786234362c30786234362c30786234362c30786234362c30786234362c30786234362c30786234362c30786234362c30786234362c30786234362c30786234362c30786234362c,
  0x2020202030786234362c30786234362c30786234362c30786234362c30786234632c30786234632c30786339632c30786339632c30786234632c30786234632c30786234632c30786234632c30786234632c30786234632c30786234632c30786234632c,
  0x2020202030786234632c30786234632c30786234632c30786234632c30786234632c30786234632c30786234632c30786234632c30786339632c30786234632c30786234632c30786234632c30786234632c30786234632c30786234632c30786234632c,
  0x2020202030786234632c30786234632c30786234632c30786234632c30786237302c30786237302c30786237302c30786237302c30786237302c30786237302c30786237302c30786237302c30786237302c30786237302c30786237302c30786237302c,
  0x2020202030786237302c30786237302c30786237302c30786237302c30786237302c30786237302c30786237302c30786237302c30786237302c30786237302c30786237302c30786237302c30786237302c30786237302c30786237302c30786237302c,
  0x2020202030786237302c30786237302c30786237302c3078313533302c30786237392c30786237392c30786237392c30786237392c30786237392c30786237392c30786432362c30786432362c30786237362c30786237362c30786237362c30786237362c,
  0x2020202030786237362c30786237362c30786237362c30786237362c30786237362c30786237362c30786237362c30786237362c30786237362c30786237362c30786237362c30786237362c30786237362c30786237362c30786237362c30786237362c,
  0x2020202030786237362c30786237362c30786237362c30786237362c30786237362c30786237362c30786432332c30786432332c30786437342c30786437342c30786437342c30786437342c30786437342c30786437342c30786437342c30786437342c,
  0x2020202030786437342c30786437342c30786437342c30786437342c30786437342c30786437342c30786437342c30786437342c30786237392c30786237392c30786237392c30786237392c30786237392c30786237392c30786237392c30786237392c,
  0x2020202030786237392c30786237392c30786237392c30786237392c30786237392c30786237392c30786237392c30786237392c30786237392c30786237392c30786237392c30786237392c30786237392c30786237392c30786237392c30786237392c,
  0x2020202030786237392c30786237392c30786237392c30786237392c30786237392c30786237392c30786237392c30786237392c30786237632c30786237632c30786237632c30786237632c30786237632c30786237632c30786237632c30786237632c,
  0x2020202030786237632c30786237632c30786237632c30786237632c30786237632c30786237632c30786237632c30786237632c30786237632c30786237632c30786237632c30786237632c30786237632c30786237632c30786237632c30786237632c,
  0x2020202030786237632c30786237632c30786237632c30786237632c30786237632c30786237632c30786237632c30786237632c30786238622c30786238622c30786238622c30786238622c30786238622c30786238322c30786238652c30786239342c,
  0x2020202030786239342c30786239342c30786238382c30786238382c30786238382c30786239312c30786238352c30786238352c30786238352c30786238352c30786238352c30786237662c30786237662c30786237662c30786237662c30786237662c,
  0x2020202030786237662c30786237662c30786237662c30786239342c30786239342c30786239342c30786239342c30786239342c30786238382c30786238382c30786238382c30786238382c30786238382c30786238382c30786238382c30786238382c,
  0x2020202030786238382c30786238382c30786238382c30786238382c30786238382c30786238382c30786238382c30786238382c30786238382c30786238382c30786238382c30786238382c30786238382c30786238382c30786238382c30786238382c,
  0x2020202030786238382c30786238382c30786238382c30786238382c30786238382c30786238382c30786238382c30786238382c30786238382c30786238382c30786238622c30786238622c30786239342c30786239342c30786239342c30786238382c,
  0x2020202030786238382c30786239342c30786239342c30786239342c30786239342c30786239342c30786239342c30786239342c30786238382c30786238382c30786238382c30786238382c30786238382c30786238382c30786238382c30786238382c,
  0x2020202030786238382c30786238382c30786238382c30786238382c30786238382c30786238382c30786238382c30786238382c30786238382c30786238382c30786238382c30786238382c30786238382c30786238382c30786239342c30786239342c,
  0x2020202030786239342c30786239342c30786238382c30786238382c30786238382c30786238382c30786238382c30786238382c30786238382c30786238382c30786238382c30786238382c30786238382c30786238382c30786238382c30786238622c,
  0x2020202030786238622c30786238622c30786238622c30786238622c30786238622c30786238382c30786238382c30786238382c30786238382c30786238382c30786238382c30786238382c30786238382c30786238382c30786238382c30786238382c,
  0x2020202030786238382c30786238382c30786238382c30786238382c30786238382c30786238382c30786238382c30786238382c30786238382c30786238382c30786238382c30786238382c30786238382c30786238382c30786238382c30786238382c,
  0x2020202030786238382c30786238382c3078313733642c3078313733642c30786261302c30786239372c30786239642c30786239642c30786239642c30786239642c30786239642c30786239642c30786239642c30786239642c30786239642c30786239642c,
  0x2020202030786239642c30786239642c30786239642c30786239642c30786239642c30786239642c30786239642c30786239642c30786239642c30786239642c30786239642c30786239642c30786239642c30786239642c30786239642c30786239372c,
  0x2020202030786239642c30786239642c30786239642c30786239642c30786239642c30786239642c30786261302c30786261302c30786261302c30786261302c30786261302c30786261302c30786261302c30786261302c30786261302c30786261302c,
  0x2020202030786261302c30786261302c30786261302c30786261302c30786261302c30786261302c30786261302c30786261302c30786261302c30786261302c30786261302c30786261302c30786261302c30786261302c30786261302c30786239372c,
  0x2020202030786239642c30786239642c30786239642c30786239642c30786239642c30786239642c30786239642c30786239642c30786239642c30786239642c30786239642c30786239642c30786239642c30786239642c30786239642c30786239642c,
  0x2020202030786239642c30786239642c30786239642c30786239642c30786239642c30786239372c30786239642c30786239642c30786239642c30786239642c30786239642c30786239642c30786261302c30786261302c30786261302c30786261302c,
  0x2020202030786261302c30786261302c30786261302c30786261302c30786261302c30786261302c30786261302c30786261302c30786261302c30786261302c30786261302c30786261302c30786261302c30786261302c30786261302c30786261302c,
  0x2020202030786261302c30786239372c30786239642c30786239642c30786239642c30786239642c30786239642c30786239642c30786239642c30786239642c30786239642c30786239642c30786239642c30786239642c30786239642c30786239642c,
  0x2020202030786239642c30786239642c30786239642c30786239642c30786239642c30786239642c30786239642c30786239642c30786239612c30786239612c30786239612c30786239612c30786239612c30786239612c30786239612c30786239612c,
  0x2020202030786239612c30786239612c30786239612c30786239612c30786239612c30786239612c30786239612c30786239612c30786239612c30786239612c30786239612c30786239612c30786239612c30786239612c30786239612c30786239612c,
  0x2020202030786239612c30786239612c30786239612c30786239612c30786239612c30786239612c30786239612c30786239612c30786261302c30786261302c30786261302c30786261302c30786261302c30786261302c30786261302c30786261302c,
  0x2020202030786261302c30786261302c30786261302c30786261302c30786261302c30786261302c30786261302c30786261302c30786261302c30786261302c30786261302c30786261302c30786261302c30786261302c30786261302c30786261302c,
  0x2020202030786261302c30786261302c30786239642c30786239642c30786239642c30786239642c30786239642c30786239642c30786239642c30786239642c30786239642c30786239642c30786239642c30786239642c30786239642c30786239642c,
  0x2020202030786239642c30786239642c30786239642c30786239642c30786239642c30786239642c30786239642c30786239642c30786261302c30786261302c30786261302c30786261302c30786261302c30786261302c30786261302c30786261302c,
  0x2020202030786261302c30786261302c30786261302c30786261302c30786261302c30786261302c30786261302c30786261302c30786261302c30786261302c30786261302c30786261302c30786261302c30786261302c30786261302c30786261302c,
  0x2020202030786261302c30786261302c30786239642c30786239642c30786239642c30786239642c30786239642c30786239642c30786239642c30786239642c30786239642c30786239642c30786239642c30786239642c30786239642c30786239642c,
  0x2020202030786239642c30786239642c30786239642c30786239642c30786239642c30786239642c30786239642c30786239642c30786239642c30786239642c30786239642c30786239642c30786261302c30786261302c30786261302c30786261302c,
  0x2020202030786261332c30786261332c30786261332c30786261332c30786261332c30786261332c30786261332c30786261332c30786261332c30786261332c30786261332c30786261332c30786261332c30786261332c30786261332c30786261332c,
  0x2020202030786261332c30786261332c30786261332c30786261332c30786261332c30786261332c30786261332c30786261332c30786261332c30786261332c30786261332c30786261332c30786261332c30786261332c30786261332c30786261332c,
  0x2020202030786261392c30786261392c30786261392c30786261392c30786261392c30786261392c30786261392c30786261392c30786261392c30786261392c30786261392c30786261392c30786261392c30786261392c30786261392c30786261392c,
  0x2020202030786261392c30786261392c30786261392c30786261392c30786261392c30786261392c30786261392c30786261392c30786261392c30786261392c30786261392c30786261392c30786261392c30786261392c30786261392c30786261392c,
  0x2020202030786261632c30786261632c30786261632c30786261632c30786261632c30786261632c30786261632c30786261632c30786261632c30786261632c30786261632c30786261632c30786261632c30786261632c30786261632c30786261632c,
  0x2020202030786261632c30786261632c30786261632c30786261632c30786261632c30786261632c30786261632c30786261632c30786261632c30786261632c30786261632c30786261632c30786261632c30786261632c30786261632c30786261632c,
  0x2020202030786330362c30786330362c30786330362c30786330362c30786330362c30786330362c30786330362c30786330362c30786330362c30786330362c30786330362c30786330362c30786330362c30786330362c30786330362c30786330362c,
  0x2020202030786330362c30786330362c30786330362c30786330362c30786330362c30786330362c30786330332c30786330362c30786330332c30786330332c30786330332c30786330332c30786330332c30786330332c30786330332c30786330332c,
  0x2020202030786330332c30786330332c30786330332c30786330332c30786330332c30786330332c30786330332c30786431342c30786431372c30786530612c30786530612c30786530612c30786530612c30786530612c30786530612c30786530612c,
  0x2020202030786530612c30786530612c30786530612c30786530612c30786632342c30786632342c30786632342c30786632342c30786331382c30786331382c30786331382c30786331382c30786331382c30786331382c30786331322c30786331322c,
  0x2020202030786331322c30786331322c30786431612c30786431612c30786431612c30786431612c30786431612c30786431612c30786431642c30786431642c30786531302c30786563342c30786531302c30786531302c30786531302c30786531302c,
  0x2020202030786530642c30786531302c30786530642c30786531302c30786531302c3078313031342c3078313261652c3078313261652c30786531392c30786531392c30786531392c30786531392c30786531392c30786531662c30786531632c30786633362c,
  0x2020202030786633362c30786633362c30786633362c3078313432652c3078313032362c3078313432652c3078313337342c3078313337342c30786334652c30786334652c30786334652c30786334652c30786334652c30786334652c30786334652c30786334652c,
  0x2020202030786334652c30786334652c30786334652c30786334652c30786334652c30786334652c30786334652c30786334652c30786334652c30786334652c30786338312c30786337652c30786338312c30786337652c30786338312c30786337652c,
  0x202020203078313133372c3078313133342c3078313032632c3078313032392c30786335312c30786335312c30786335312c30786335312c30786335312c30786335312c30786335312c30786335312c30786335312c30786335312c30786335312c30786335312c]

/-- UnicodeData/CharPropsData.py:2946-3201 the lines. -/
def charText14 : List Nat :=
 [0x2020202030786335312c30786335312c30786335312c30786335312c30786335342c30786335342c30786335342c30786335342c30786335342c30786335342c30786335342c30786335342c30786335342c30786335342c30786335342c30786335342c,
  0x2020202030786335342c30786335342c30786335342c30786335342c30786335342c30786335342c30786335342c30786335342c30786335342c30786335342c30786335342c30786335342c30786335342c30786335342c30786335342c30786335342c,
  0x2020202030786335342c30786335342c30786335342c30786335342c30786335372c30786335372c30786335342c30786335342c30786335342c30786335342c30786335342c30786335342c30786335342c30786335342c30786335342c30786335342c,
  0x2020202030786335612c30786335612c30786335612c30786336302c30786335642c30786338372c30786338342c30786336302c30786335642c30786336302c30786335642c30786336302c30786335642c30786336302c30786335642c30786336302c,
  0x2020202030786335642c30786336302c30786335642c30786336302c30786335642c30786336302c30786335642c30786336302c30786335642c30786335612c30786335612c30786335612c30786335612c30786335612c30786335612c30786335612c,
  0x2020202030786335612c30786335612c30786335612c30786335612c30786335612c30786335612c30786335612c30786335612c30786335612c30786335612c30786335612c30786335612c30786335612c30786335612c30786335612c30786335612c,
  0x2020202030786335612c30786335612c30786335612c30786335612c30786335612c30786335612c30786335612c30786335612c30786335612c30786335612c30786335612c30786335612c30786336302c30786335642c30786336302c30786335642c,
  0x2020202030786335612c30786335612c30786335612c30786335612c30786335612c30786335612c30786335612c30786335612c30786335612c30786335612c30786335612c30786335612c30786335612c30786335612c30786335612c30786335612c,
  0x2020202030786335612c30786335612c30786335612c30786335612c30786335612c30786335612c30786335612c30786335612c30786335612c30786335612c30786335612c30786335612c30786336302c30786335642c30786335612c30786335612c,
  0x2020202030786336332c30786336332c30786336332c30786336332c30786336332c30786336332c30786336332c30786336332c30786336332c30786336332c30786336332c30786336332c30786336392c30786336332c30786336332c30786336332c,
  0x2020202030786336332c30786336332c30786336332c30786336332c30786336332c30786336332c30786336332c30786336332c30786336332c30786336332c30786336332c30786336332c30786336332c30786336332c30786336332c30786336332c,
  0x2020202030786336332c30786336332c30786336332c30786336332c30786336332c30786336332c30786336332c30786336332c30786336332c30786336332c30786336332c30786336332c30786336332c30786336332c30786336332c30786336332c,
  0x2020202030786336392c30786336392c30786336392c30786336332c30786336332c30786336332c30786336332c30786336332c30786336332c30786336332c30786336332c30786336332c30786336332c30786336332c30786336332c30786336332c,
  0x2020202030786336332c30786336332c30786336332c30786336332c30786336332c30786336332c30786336332c30786336332c30786336332c30786336332c30786336332c30786336332c30786336332c30786336332c30786336332c30786336332c,
  0x2020202030786336362c30786336332c30786336332c30786336332c30786339662c30786339662c30786339662c30786339662c30786339662c30786339662c30786339662c30786339662c30786339662c30786339662c30786339662c30786339662c,
  0x2020202030786339662c30786339662c30786339662c30786339662c30786339662c30786339662c30786339662c30786339662c30786339662c30786339662c30786339662c30786339662c30786339662c30786339662c30786339662c30786339662c,
  0x2020202030786339662c30786339662c30786339662c30786339662c30786432302c30786438662c30786530642c30786530642c30786530642c30786530642c30786530642c30786531302c30786530642c30786530642c30786563342c30786563342c,
  0x2020202030786530642c30786530642c30786530642c30786530642c30786531302c30786531302c30786632372c3078313031342c3078313031342c3078313031342c3078313031342c3078313031342c3078313031342c3078313031342c3078313031342c3078313031342c,
  0x202020203078313031342c3078313264622c3078313264622c3078313262312c30786434342c30786434342c30786434342c30786434342c30786434342c30786434342c30786434342c30786434342c30786434342c30786434342c30786434342c30786434342c,
  0x2020202030786434342c30786434342c30786434342c30786434342c30786434342c30786434342c30786434342c30786434342c30786434342c30786434342c30786434342c30786434342c30786434342c30786434342c30786434342c30786434342c,
  0x2020202030786434342c30786434342c30786434342c30786434342c30786435332c30786435332c30786435332c30786435332c30786435332c30786435332c30786434612c30786434612c30786434612c30786434612c30786434612c30786434372c,
  0x2020202030786435632c30786435632c30786435632c30786435362c30786435632c30786435632c30786435632c30786435632c30786435632c30786435632c30786435632c30786435632c30786435632c30786435632c30786435632c30786435362c,
  0x2020202030786435632c30786435632c30786435632c30786435632c30786435302c30786435302c30786435392c30786435392c30786435392c30786435392c30786434642c30786434642c30786434642c30786434642c30786434642c30786435332c,
  0x2020202030786532352c30786532352c30786532352c30786532352c30786532352c30786532352c30786532352c30786532352c30786532352c30786532352c30786532352c30786532352c30786532322c30786532352c30786532352c30786532352c,
  0x2020202030786532352c30786532352c30786532352c30786532352c30786435632c30786435632c30786435632c30786435632c30786435632c30786435632c30786435632c30786435632c30786435632c30786435632c30786435632c30786435632c,
  0x2020202030786435632c30786435632c30786435362c30786435632c30786435632c30786435632c30786435632c30786435632c30786435632c30786435632c30786435632c30786435632c30786435632c30786435632c30786435632c30786435632c,
  0x2020202030786435632c30786435302c30786435302c30786435302c30786435332c30786435332c30786435332c30786435332c30786435332c30786435332c30786435332c30786435332c30786435332c30786435332c30786435332c30786435332c,
  0x2020202030786435332c30786435332c30786435332c30786435332c30786435332c30786435332c30786435332c30786435332c30786435332c30786435332c30786435332c30786435332c30786435332c30786435332c30786435332c30786435332c,
  0x2020202030786435332c30786435332c30786435332c30786435332c30786435662c30786435662c30786435662c30786435662c30786435662c30786436322c30786436322c30786436322c30786435662c30786435662c30786435662c30786435662c,
  0x2020202030786435662c30786435662c30786532382c30786532382c30786532382c30786532382c30786532382c30786532382c30786633392c30786633392c30786633392c30786633392c30786633392c30786633392c30786633392c3078313134302c,
  0x202020203078313134302c3078313032662c3078313032662c3078313032662c30786436352c30786436352c30786436352c30786436352c30786436352c30786436352c30786436352c30786436352c30786436352c30786436352c30786436352c30786436352c,
  0x2020202030786436352c30786436352c30786436352c30786436352c30786436352c30786436352c30786436352c30786436352c30786436352c30786436352c30786436352c30786436352c30786436352c30786436352c30786436352c30786436352c,
  0x2020202030786436352c30786436352c30786436352c30786436352c30786436622c30786436622c30786436622c30786436622c30786436622c30786436622c30786436622c30786436622c30786436622c30786436622c30786436622c30786436622c,
  0x2020202030786436622c30786436622c30786436622c30786436622c30786436622c30786436622c30786436622c30786436622c30786436622c30786436622c30786436622c30786436622c30786436622c30786436622c30786436622c30786436622c,
  0x2020202030786436622c30786436622c30786436622c30786436622c30786437342c30786437342c30786437342c30786437342c30786437342c30786437342c30786437342c30786437342c30786437342c30786437342c30786437342c30786437342c,
  0x2020202030786437342c30786437342c30786437342c30786437342c30786437342c30786437342c30786437342c30786437342c30786437342c30786437342c30786437342c30786437342c30786437342c30786437342c30786437342c30786437342c,
  0x2020202030786437342c30786437342c30786437342c30786437342c30786438302c30786438302c30786438302c30786438302c30786438302c30786438302c30786438302c30786438302c30786438302c30786438302c30786438302c30786438302c,
  0x2020202030786438302c30786438302c30786438302c30786438302c30786438302c30786438302c30786438302c30786438302c30786438302c30786438302c30786438302c30786438302c30786438302c30786438302c30786438302c30786438302c,
  0x2020202030786438302c30786438302c30786438302c30786438302c30786438632c30786438632c30786438632c30786438632c30786438632c30786438632c30786438632c30786438632c30786438632c30786438632c30786438632c30786438632c,
  0x2020202030786438632c30786438632c30786438632c30786438632c30786438632c30786438632c30786438632c30786438632c30786438632c30786438632c30786438632c30786438632c30786438632c30786438632c30786438632c30786438632c,
  0x2020202030786438632c30786438632c30786438632c30786438632c30786532652c30786532652c30786532652c30786532652c30786532652c30786532652c30786532652c30786532652c30786532652c30786532652c30786532652c30786532652c,
  0x2020202030786532652c30786532652c30786532652c30786532652c30786532652c30786532652c30786532652c30786532652c30786532652c30786532652c30786532652c30786532652c30786532652c30786532652c30786532652c30786532652c,
  0x2020202030786532652c30786532652c30786532652c30786532652c30786533342c30786533342c30786533342c30786533342c30786533342c30786533342c30786533342c30786533342c30786533342c30786533342c30786533342c30786533342c,
  0x2020202030786533342c30786533342c30786533342c30786533342c30786533342c30786533342c30786533342c30786533342c30786533342c30786533312c30786533312c30786533312c30786533312c30786533312c30786533312c30786533312c,
  0x2020202030786533312c30786533312c30786533312c30786533312c30786533342c30786533342c30786533342c30786533342c30786533342c30786533342c30786533342c30786533342c30786533342c30786533342c30786533342c30786533342c,
  0x2020202030786533342c30786533342c30786533342c30786533342c30786533342c30786533342c30786533342c30786533342c30786533342c30786533342c30786533342c30786533342c30786533342c30786533342c30786533342c30786533342c,
  0x2020202030786533342c30786533342c30786533342c30786533342c30786566342c30786566342c30786534362c30786534362c30786633632c30786633632c30786633632c30786633632c30786633632c30786633632c30786633632c3078313033622c,
  0x202020203078313033622c3078313033622c3078313033622c3078313033622c3078313033382c3078313033382c3078313033382c3078313033382c3078313033382c3078313033382c3078313033382c3078313033382c3078313033382c3078313033382c3078313033382c3078313033382c,
  0x202020203078313033382c3078313033382c3078313033382c3078313033382c30786535352c30786535322c30786535352c30786535322c30786535352c30786535322c30786535352c30786535322c30786535352c30786535322c30786535352c30786535322c,
  0x2020202030786535352c30786535322c30786535352c30786535322c30786535352c30786535322c30786535352c30786535322c30786535352c30786535322c30786535352c30786535322c30786535352c30786535322c30786535352c30786535322c,
  0x2020202030786535352c30786535322c30786535352c30786535322c30786536312c30786536312c30786536312c30786536312c30786536312c30786536312c30786536312c30786536312c30786536312c30786536312c30786536312c30786536312c,
  0x2020202030786536312c30786536312c30786536312c30786536312c30786536312c30786536312c30786536312c30786536312c30786536312c30786536312c30786536312c30786536312c30786536312c30786536312c30786536312c30786536312c,
  0x2020202030786536312c30786536312c30786536312c30786536312c30786536372c30786536372c30786536372c30786536372c30786536372c30786536372c30786536372c30786536372c30786536372c30786536372c30786536372c30786536372c,
  0x2020202030786536372c30786536372c30786536372c30786536372c30786536372c30786536372c30786536372c30786536372c30786536372c30786536372c30786536372c30786536372c30786536372c30786536372c30786536372c30786536372c,
  0x2020202030786536372c30786536372c30786536372c30786536372c30786565652c30786565652c30786565652c30786565652c30786565652c30786565652c30786565652c30786565652c30786537662c30786537662c30786537662c30786537662c,
  0x2020202030786537662c30786537662c30786537662c30786537662c30786537662c30786537662c30786537662c30786537662c30786537662c30786537662c30786537662c30786633662c30786633662c30786633662c30786633662c3078313033652c,
  0x202020203078313033652c3078313033652c3078313033652c3078313033652c30786538382c30786538382c30786538382c30786538382c30786538382c30786538382c30786538382c30786538382c30786538382c30786538382c30786538382c30786538382c,
  0x2020202030786538382c30786538382c30786538382c30786538382c30786538382c30786538382c30786538382c30786538382c30786538382c30786538382c30786538382c30786538382c30786538382c30786538382c30786538382c30786538382c,
  0x2020202030786538382c30786538382c30786538382c30786538382c30786539312c30786539312c30786539312c30786539312c30786539312c30786539312c30786539312c30786539312c30786539312c30786539312c30786539312c30786539312c,
  0x2020202030786539312c30786539312c30786539312c30786539312c30786539312c30786539312c30786539312c30786539312c30786539312c30786539312c30786539312c30786539312c30786539312c30786539312c30786539312c30786539312c,
  0x2020202030786539312c30786539312c30786539312c30786539312c30786539612c30786539612c30786539612c30786539612c30786539612c30786539612c30786539612c30786539612c30786539612c30786539612c30786539612c30786539612c,
  0x2020202030786539612c30786539612c30786539612c30786539612c30786539612c30786539612c30786539612c30786539612c30786539612c30786539612c30786539612c30786539612c30786539612c30786539612c30786539612c30786539612c,
  0x2020202030786539612c30786539612c30786539612c30786539342c30786539372c30786539372c30786539372c30786539372c30786539372c30786539372c30786539372c30786539372c30786539372c30786539372c30786539372c30786539372c,
  0x2020202030786539372c30786539372c30786539372c30786539372c30786539372c30786539372c30786539372c30786539372c30786539372c30786539372c30786539372c30786539372c30786539372c30786539372c30786539372c30786539612c,
  0x2020202030786539612c30786539612c30786539612c30786539612c30786561332c30786561332c30786561332c30786561332c30786561332c30786561332c30786561332c30786561332c30786561332c30786561332c30786561332c30786561332c,
  0x2020202030786561332c30786561332c30786561302c30786561302c30786561302c30786561302c30786561302c30786561302c30786561302c30786561302c30786539642c30786561362c3078313034612c3078313034342c3078313035332c3078313034312c,
  0x2020202030786561332c30786561332c3078313034312c3078313034312c30786562352c30786562352c30786561392c30786562352c30786562352c30786562352c30786561632c30786562352c30786562352c30786562352c30786562352c30786561392c,
  0x2020202030786562352c30786562352c30786562352c30786562352c30786562352c30786562352c30786562352c30786562352c30786562352c30786562352c30786562352c30786562352c30786562352c30786562352c30786562352c30786562352c,
  0x2020202030786562352c30786562352c30786562352c30786562352c30786562382c30786562382c30786562382c30786562382c30786562382c30786562382c30786562382c30786562382c30786562382c30786562382c30786562382c30786562382c,
  0x2020202030786562382c30786562382c30786562382c30786562382c30786562382c30786562382c30786562382c30786562382c30786562382c30786562382c30786562382c30786562382c30786562382c30786562382c30786562382c30786562382c,
  0x2020202030786562382c30786562382c30786562382c30786562382c30786564302c30786564302c30786564302c30786564302c30786564302c30786564302c30786564302c30786564302c30786564302c30786564302c30786564302c30786564302c,
  0x2020202030786564302c30786564302c30786564302c30786564302c30786564302c30786564302c30786564302c30786564302c30786564302c30786564302c30786564302c30786564302c30786564302c30786564302c30786564302c30786564302c,
  0x2020202030786564302c30786564302c30786564302c30786564302c30786566312c30786566312c30786566312c30786566312c30786566312c30786566312c30786566312c30786566312c30786566312c30786566312c30786566312c30786566312c,
  0x2020202030786566312c30786566312c30786566312c30786566312c3078313134392c3078313134392c3078313134392c3078313134392c3078313134392c3078313134392c3078313134392c3078313134392c3078313134392c3078313134392c3078313134392c3078313134392c,
  0x202020203078313134392c3078313134392c3078313134392c3078313134392c30786632342c30786632342c30786632342c30786632312c30786632312c30786632312c30786632312c30786632312c3078313138322c3078313364642c3078313364642c3078313364642c,
  0x202020203078313364642c3078313335662c3078313335662c3078313335662c3078313365302c3078313336322c3078313336322c3078313365302c3078313532342c3078313532342c3078313532342c3078313532342c3078313532372c3078313532372c3078313532372c3078313765652c,
  0x202020203078313765652c3078313765652c3078313765652c3078313862342c30786633392c30786633392c30786633392c30786633392c3078313032662c3078313032662c3078313032662c3078313032662c3078313032662c3078313032662c3078313032662c3078313032662c,
  0x202020203078313032662c3078313032662c3078313032662c3078313032662c3078313033322c3078313033322c3078313033322c3078313033322c3078313033322c3078313033322c3078313033322c3078313033322c3078313033322c3078313033322c3078313033322c3078313033322c,
  0x202020203078313033322c3078313033322c3078313033322c3078313033322c30786635612c30786635612c30786635612c30786635612c30786636632c30786637352c30786637382c30786637352c30786637382c30786637352c30786637382c30786637352c,
  0x2020202030786637382c30786637352c30786637382c30786637352c30786637352c30786637352c30786637382c30786637352c30786637352c30786637352c30786637352c30786637352c30786637352c30786637352c30786637352c30786637352c,
  0x2020202030786637352c30786637352c30786637352c30786637352c30786637352c30786637352c30786637352c30786637352c30786637352c30786637352c30786637352c30786637352c30786635642c30786635612c30786635612c30786635612c,
  0x2020202030786635612c30786635612c30786635612c30786636662c30786635612c30786636662c30786636632c30786636632c30786638312c30786637652c30786638312c30786638312c30786638312c30786637652c30786637652c30786638312c,
  0x2020202030786637652c30786638312c30786637652c30786638312c30786637652c3078313036352c3078313036352c3078313036352c3078313161302c3078313035632c3078313036352c3078313035632c30786637652c30786638312c30786637652c30786637652c,
  0x202020203078313035632c3078313035632c3078313035632c3078313035632c3078313035662c3078313036322c3078313161302c3078313161302c30786638342c30786638342c3078313037372c3078313036652c3078313037372c3078313036652c3078313037372c3078313036652c,
  0x202020203078313037372c3078313036652c3078313037372c3078313036652c3078313037372c3078313036652c3078313037372c3078313036652c3078313036652c3078313036652c3078313037372c3078313036652c3078313037372c3078313036652c3078313037372c3078313036652c,
  0x202020203078313037372c3078313036652c3078313037372c3078313036652c3078313037372c3078313036652c3078313037372c3078313036652c30786638612c30786638612c30786638612c30786638612c30786638612c30786638612c30786638612c30786638612c,
  0x2020202030786638612c30786638612c30786638612c30786638612c30786638612c30786638612c30786638612c30786638612c30786638612c30786638612c30786638612c30786638612c30786638612c30786638612c30786638612c30786638612c,
  0x2020202030786638612c30786638612c30786638612c30786638612c30786638612c30786638612c30786638612c30786638612c30786639392c30786639392c30786639392c30786639392c30786639392c30786639392c30786639392c30786639392c,
  0x2020202030786639392c30786639392c30786639392c30786639392c30786639392c30786639392c30786639392c30786639392c30786639392c30786639392c30786639392c30786639392c30786639392c30786639392c30786639392c30786639392c,
  0x2020202030786639392c30786639392c30786639392c30786639392c30786639392c30786639392c30786639392c30786639392c30786639392c30786639392c30786639392c3078313536332c3078313536332c3078313536332c3078313536332c3078313536332c,
  0x202020203078313536332c3078313536332c3078313536332c3078313536332c3078313536332c3078313536332c3078313536332c3078313536332c3078313536332c3078313536332c3078313536332c3078313536332c30786639662c30786639662c30786639662c30786639662c,
  0x2020202030786639662c30786639662c30786639662c30786639662c30786639662c30786639662c30786639662c30786639662c30786639662c30786639662c30786639662c30786639662c30786639662c30786639662c30786639662c30786639662c,
  0x2020202030786639662c30786639662c30786639662c30786639662c30786639662c30786639662c30786639662c30786639662c30786639662c30786639662c30786639662c30786639662c30786665372c30786666662c30786666362c30786666632c,
  0x2020202030786666632c30786666662c30786666662c30786666362c30786666362c30786666632c30786666632c30786666632c30786666632c30786666632c30786666662c30786666662c30786666662c30786665372c30786665372c30786665372c,
  0x2020202030786665372c30786666662c30786666662c30786666662c30786666662c30786666662c30786666662c30786666662c30786666662c30786666662c30786666662c30786666662c30786666662c30786666662c30786665372c30786666362c,
  0x2020202030786666392c30786665372c30786665372c30786666632c30786666632c30786666632c30786666632c30786666632c30786666632c30786665612c30786666662c30786666632c30786666332c30786666332c30786666332c30786666332c,
  0x2020202030786666332c30786666332c30786666332c30786666332c30786666332c30786666332c3078313136612c3078313136612c3078313136372c3078313136342c30786666302c30786666302c3078313031372c3078313031372c3078313031372c3078313031372c,
  0x202020203078313264622c3078313264622c3078313262312c3078313262312c3078313262372c3078313261652c3078313261652c3078313261652c3078313261652c3078313262312c3078313365332c3078313262372c3078313262312c3078313262372c3078313261652c3078313262372c,
  0x202020203078313264622c3078313261652c3078313261652c3078313261652c3078313262312c3078313262312c3078313261652c3078313261652c3078313262312c3078313261652c3078313261652c3078313262312c3078313033322c3078313033322c3078313033322c3078313033322c,
  0x202020203078313033322c3078313032662c3078313032662c3078313033322c3078313033322c3078313033322c3078313033322c3078313033322c3078313033322c3078313533632c3078313533632c3078313533632c3078313134302c3078313032662c3078313032662c3078313032662c,
  0x202020203078313032662c3078313265372c3078313263302c3078313263302c3078313263302c3078313263302c3078313533632c3078313533632c3078313533632c3078313533632c3078313533632c3078313533632c3078313035302c3078313035302c3078313034642c3078313034372c,
  0x202020203078313034642c3078313034372c3078313034642c3078313034372c3078313034642c3078313034372c3078313034342c3078313034342c3078313034342c3078313034342c3078313035392c3078313035362c3078313034342c3078313139642c3078313433612c3078313433642c,
  0x202020203078313433642c3078313433612c3078313433612c3078313433612c3078313433612c3078313433612c3078313434302c3078313434302c3078313535372c3078313534622c3078313534622c3078313534382c3078313037372c3078313036652c3078313037372c3078313036652c,
  0x202020203078313037372c3078313036652c3078313037372c3078313036652c3078313036622c3078313036382c3078313036382c3078313037372c3078313036652c3078313338332c3078313338302c3078313734362c3078313338332c3078313338302c3078313434392c3078313434362c,
  0x202020203078313535612c3078313535612c3078313536302c3078313535612c3078313536302c3078313535612c3078313536302c3078313535612c3078313536302c3078313535612c3078313536302c3078313535612c3078313037372c3078313036652c3078313037372c3078313036652c,
  0x202020203078313037372c3078313036652c3078313037372c3078313036652c3078313037372c3078313036652c3078313037372c3078313036652c3078313037372c3078313036652c3078313037372c3078313036652c3078313037372c3078313036652c3078313037372c3078313036652c,
  0x202020203078313037372c3078313036652c3078313037372c3078313036652c3078313037372c3078313036652c3078313037372c3078313036652c3078313037372c3078313036652c3078313037372c3078313036652c3078313037312c3078313036652c3078313036652c3078313036652c,
  0x202020203078313036652c3078313036652c3078313036652c3078313036652c3078313036652c3078313037372c3078313036652c3078313037372c3078313036652c3078313037372c3078313037372c3078313036652c3078313037612c3078313037612c3078313038302c3078313038362c,
  0x202020203078313038362c3078313038362c3078313038362c3078313038362c3078313038362c3078313038362c3078313038362c3078313038362c3078313038362c3078313038362c3078313038362c3078313038362c3078313038362c3078313038362c3078313038362c3078313038362c,
  0x202020203078313038362c3078313038362c3078313038362c3078313038362c3078313038362c3078313038362c3078313038362c3078313038362c3078313038362c3078313038362c3078313038362c3078313038362c3078313038362c3078313038302c3078313037612c3078313037612c,
  0x202020203078313037612c3078313037612c3078313038302c3078313038302c3078313037612c3078313037612c3078313038332c3078313435322c3078313434662c3078313434662c3078313038362c3078313038362c3078313037642c3078313037642c3078313037642c3078313037642c,
  0x202020203078313037642c3078313037642c3078313037642c3078313037642c3078313037642c3078313037642c3078313435352c3078313435352c3078313435352c3078313435352c3078313435352c3078313435352c3078313039622c3078313039622c3078313039622c3078313039622c,
  0x202020203078313039622c3078313039622c3078313039622c3078313039622c3078313039622c3078313039622c3078313039622c3078313039622c3078313039622c3078313039622c3078313039622c3078313039622c3078313039622c3078313039622c3078313039622c3078313039622c,
  0x202020203078313039622c3078313039622c3078313039622c3078313039622c3078313039622c3078313039622c3078313039622c3078313039622c3078313039622c3078313039622c3078313039622c3078313039622c3078313061342c3078313061342c3078313061342c3078313061342c,
  0x202020203078313061342c3078313061342c3078313061342c3078313061342c3078313061342c3078313061342c3078313061342c3078313061342c3078313061342c3078313061342c3078313061342c3078313061342c3078313061342c3078313061342c3078313061342c3078313061342c,
  0x202020203078313061342c3078313061342c3078313061342c3078313061342c3078313061372c3078313061372c3078313061372c3078313061612c3078313061372c3078313061372c3078313061642c3078313061642c3078313062302c3078313062302c3078313062302c3078313062302c,
  0x202020203078313062302c3078313062302c3078313062302c3078313062302c3078313062302c3078313062302c3078313062302c3078313062302c3078313062302c3078313062302c3078313062302c3078313062302c3078313062302c3078313062302c3078313062302c3078313062302c,
  0x202020203078313062302c3078313062302c3078313062302c3078313062302c3078313062302c3078313062302c3078313062302c3078313062302c3078313062302c3078313062302c3078313062302c3078313062302c3078313062392c3078313062392c3078313062392c3078313062392c,
  0x202020203078313062392c3078313062392c3078313062392c3078313062392c3078313062392c3078313062392c3078313062392c3078313062392c3078313062632c3078313062332c3078313063322c3078313062662c3078313062392c3078313062392c3078313062392c3078313062392c,
  0x202020203078313062392c3078313062392c3078313062392c3078313062392c3078313062392c3078313062392c3078313062392c3078313062392c3078313062392c3078313062392c3078313062392c3078313062392c3078313062392c3078313062392c3078313062392c3078313062392c,
  0x202020203078313062392c3078313062392c3078313062392c3078313062392c3078313062392c3078313062392c3078313062392c3078313062392c3078313062392c3078313062392c3078313062392c3078313062392c3078313338392c3078313338362c3078313064342c3078313063652c,
  0x202020203078313064342c3078313063652c3078313064342c3078313063652c3078313064342c3078313063652c3078313064342c3078313063652c3078313064342c3078313063652c3078313064312c3078313135322c3078313063352c3078313063352c3078313063352c3078313063622c,
  0x202020203078313435382c3078313435382c3078313435382c3078313435382c3078313435382c3078313435382c3078313435382c3078313435382c3078313063382c3078313063382c3078313063622c3078313064372c3078313064342c3078313063652c3078313064342c3078313063652c,
  0x202020203078313064342c3078313063652c3078313064342c3078313063652c3078313064342c3078313063652c3078313064342c3078313063652c3078313064342c3078313063652c3078313064342c3078313063652c3078313064342c3078313063652c3078313064342c3078313063652c,
  0x202020203078313064342c3078313063652c3078313064342c3078313063652c3078313064342c3078313063652c3078313064342c3078313063652c3078313064342c3078313063652c3078313064342c3078313063652c3078313536662c3078313536632c3078313536662c3078313536632c,
  0x202020203078313537322c3078313537322c3078313734662c3078313435382c3078313065302c3078313065302c3078313065332c3078313065332c3078313065332c3078313065332c3078313065332c3078313065332c3078313065332c3078313065332c3078313065332c3078313065332c,
  0x202020203078313065332c3078313065332c3078313065332c3078313065332c3078313065332c3078313065332c3078313065332c3078313065332c3078313065332c3078313065332c3078313065332c3078313065332c3078313065332c3078313065332c3078313065332c3078313065332c,
  0x202020203078313065332c3078313065332c3078313065332c3078313065332c3078313065302c3078313065302c3078313065302c3078313065302c3078313065302c3078313065302c3078313065302c3078313065302c3078313065302c3078313065302c3078313065302c3078313065302c,
  0x202020203078313066322c3078313066322c3078313066322c3078313066322c3078313066322c3078313066322c3078313065392c3078313065392c3078313065392c3078313065392c3078313065392c3078313065632c3078313065632c3078313065632c3078313134362c3078313066352c,
  0x202020203078313130342c3078313130342c3078313130342c3078313130342c3078313130342c3078313130342c3078313130342c3078313130342c3078313130342c3078313130342c3078313130342c3078313130342c3078313130342c3078313130342c3078313130342c3078313130342c,
  0x202020203078313065662c3078313065662c3078313065662c3078313065662c3078313065662c3078313065662c3078313065662c3078313065662c3078313065662c3078313065662c3078313066322c3078313066322c3078313066322c3078313066322c3078313066322c3078313066322c,
  0x202020203078313066322c3078313066322c3078313066322c3078313066322c3078313066322c3078313066322c3078313066322c3078313066322c3078313066322c3078313066322c3078313066322c3078313066322c3078313066322c3078313066322c3078313066322c3078313066322c,
  0x202020203078313131332c3078313131332c3078313131332c3078313131332c3078313131332c3078313131332c3078313131332c3078313131332c3078313131332c3078313131332c3078313131332c3078313131332c3078313131332c3078313131332c3078313131332c3078313131332c,
  0x202020203078313131332c3078313131332c3078313131332c3078313131332c3078313131332c3078313131332c3078313131332c3078313131332c3078313131332c3078313131332c3078313131332c3078313131332c3078313131332c3078313131332c3078313131332c3078313131332c,
  0x202020203078313132352c3078313132352c3078313132352c3078313132352c3078313132352c3078313132352c3078313132352c3078313132352c3078313132352c3078313132352c3078313132352c3078313132352c3078313132352c3078313132352c3078313132352c3078313132352c,
  0x202020203078313132352c3078313132352c3078313132352c3078313132352c3078313132352c3078313132352c3078313132352c3078313132352c3078313132352c3078313132352c3078313132352c3078313132352c3078313132352c3078313132352c3078313132352c3078313132352c,
  0x202020203078313132652c3078313132652c3078313132652c3078313132652c3078313134332c3078313132652c3078313132652c3078313132652c3078313132652c3078313132652c3078313132652c3078313132652c3078313132652c3078313132652c3078313132652c3078313132652c,
  0x202020203078313132652c3078313132652c3078313132652c3078313132652c3078313132652c3078313132652c3078313132652c3078313132652c3078313132652c3078313132652c3078313132652c3078313132652c3078313132652c3078313132652c3078313132652c3078313132652c,
  0x202020203078313133312c3078313133312c3078313133312c3078313133312c3078313133312c3078313133312c3078313133312c3078313133312c3078313133312c3078313133312c3078313133312c3078313133312c3078313133312c3078313133312c3078313133312c3078313133312c,
  0x202020203078313133312c3078313133312c3078313133312c3078313133312c3078313133312c3078313133312c3078313133312c3078313133312c3078313133312c3078313133312c3078313133312c3078313133312c3078313133312c3078313133312c3078313133312c3078313133312c,
  0x202020203078313133642c3078313133642c3078313133642c3078313133642c3078313265312c3078313265312c3078313265312c3078313265312c3078313265312c3078313265312c3078313265312c3078313265312c3078313465322c3078313763642c3078313763642c3078313763642c,
  0x202020203078313763642c3078313763642c3078313763642c3078313763642c3078313763642c3078313763642c3078313931642c3078313931642c3078313931642c3078313931642c3078313931642c3078313931642c3078313931642c3078313931642c3078313931642c3078313931642c,
  0x202020203078313162322c3078313162322c3078313162322c3078313162322c3078313162322c3078313162322c3078313162322c3078313162322c3078313162322c3078313162322c3078313162322c3078313162322c3078313162322c3078313162322c3078313162322c3078313162322c,
  0x202020203078313162322c3078313162322c3078313162322c3078313162322c3078313162322c3078313162322c3078313161392c3078313161392c3078313161632c3078313161632c3078313162322c3078313161392c3078313161392c3078313161392c3078313161392c3078313161392c,
  0x202020203078313162382c3078313162382c3078313162382c3078313162382c3078313162382c3078313162382c3078313162382c3078313162382c3078313162382c3078313162382c3078313162382c3078313162382c3078313162382c3078313162382c3078313162382c3078313162382c,
  0x202020203078313162382c3078313162382c3078313162382c3078313162382c3078313162382c3078313162382c3078313162382c3078313162382c3078313162382c3078313162382c3078313162382c3078313162382c3078313162382c3078313162382c3078313162382c3078313162382c,
  0x202020203078313164332c3078313164332c3078313164332c3078313164332c3078313164332c3078313164332c3078313164332c3078313164332c3078313164332c3078313164332c3078313164332c3078313164332c3078313164332c3078313164332c3078313164332c3078313164332c,
  0x202020203078313164332c3078313164332c3078313164332c3078313164332c3078313164332c3078313164332c3078313164332c3078313164332c3078313164332c3078313164332c3078313164332c3078313164332c3078313164332c3078313164332c3078313164332c3078313164332c,
  0x202020203078313164662c3078313164662c3078313164662c3078313164662c3078313164662c3078313164662c3078313164662c3078313164662c3078313164662c3078313164662c3078313164662c3078313164662c3078313164662c3078313164662c3078313164662c3078313164662c,
  0x202020203078313164662c3078313164662c3078313164662c3078313164662c3078313164662c3078313164662c3078313164662c3078313164662c3078313164662c3078313164662c3078313164662c3078313164662c3078313164662c3078313164662c3078313164632c3078313165322c,
  0x202020203078313165652c3078313165652c3078313165652c3078313165652c3078313165652c3078313165652c3078313165652c3078313165652c3078313165652c3078313165652c3078313165652c3078313165652c3078313165652c3078313165652c3078313165652c3078313165652c,
  0x202020203078313165652c3078313165652c3078313165652c3078313165652c3078313165652c3078313165652c3078313165652c3078313165652c3078313165652c3078313165652c3078313165652c3078313165652c3078313165652c3078313165652c3078313165652c3078313165652c,
  0x202020203078313166342c3078313166342c3078313166342c3078313166342c3078313166342c3078313166342c3078313166342c3078313166342c3078313166342c3078313166342c3078313166342c3078313166342c3078313166342c3078313166342c3078313166342c3078313166342c,
  0x202020203078313166342c3078313332662c3078313166612c3078313333322c3078313166612c3078313166612c3078313166612c3078313166612c3078313166372c3078313166372c3078313166372c3078313166612c3078313735322c3078313735352c3078313937612c3078313937372c,
  0x202020203078313166642c3078313166642c3078313166642c3078313230632c3078313231322c3078313231322c3078313231322c3078313231322c3078313231322c3078313231322c3078313231322c3078313231322c3078313231322c3078313231322c3078313231322c3078313231322c,
  0x202020203078313231322c3078313231322c3078313231322c3078313231322c3078313231322c3078313231322c3078313231322c3078313231322c3078313231322c3078313231322c3078313231322c3078313231322c3078313231322c3078313231322c3078313231322c3078313231322c,
  0x202020203078313231322c3078313231322c3078313231322c3078313230302c3078313230632c3078313230632c3078313166642c3078313166642c3078313166642c3078313166642c3078313230632c3078313230632c3078313166642c3078313166642c3078313230632c3078313230632c,
  0x202020203078313231652c3078313231652c3078313231652c3078313231652c3078313231652c3078313231652c3078313231652c3078313231652c3078313231652c3078313231652c3078313231652c3078313231652c3078313231652c3078313231652c3078313231652c3078313231652c,
  0x202020203078313232312c3078313231652c3078313231652c3078313231652c3078313231652c3078313231652c3078313231652c3078313231382c3078313231382c3078313231382c3078313231652c3078313231622c3078313537382c3078313537622c3078313537652c3078313537652c,
  0x202020203078313233302c3078313233302c3078313233302c3078313233302c3078313233302c3078313233302c3078313233302c3078313233302c3078313233302c3078313233302c3078313233302c3078313233302c3078313233302c3078313233302c3078313233302c3078313233302c,
  0x202020203078313232342c3078313233302c3078313232342c3078313232342c3078313232342c3078313233392c3078313233392c3078313232342c3078313232342c3078313233392c3078313233302c3078313233392c3078313233392c3078313233302c3078313232342c3078313232372c,
  0x202020203078313233302c3078313233302c3078313233302c3078313233302c3078313233302c3078313233302c3078313233302c3078313233302c3078313233302c3078313233302c3078313233302c3078313233302c3078313233302c3078313233302c3078313233302c3078313233302c,
  0x202020203078313233302c3078313233302c3078313233302c3078313233302c3078313233302c3078313233302c3078313233302c3078313233302c3078313233302c3078313233302c3078313233302c3078313233302c3078313233302c3078313233302c3078313233302c3078313233302c,
  0x202020203078313234622c3078313234622c3078313234622c3078313234622c3078313234622c3078313234622c3078313234622c3078313234622c3078313234622c3078313234622c3078313234622c3078313234622c3078313234622c3078313234622c3078313234622c3078313234622c,
  0x202020203078313234622c3078313234622c3078313234622c3078313234622c3078313234622c3078313234622c3078313234622c3078313234622c3078313234622c3078313234622c3078313234622c3078313234622c3078313234622c3078313234622c3078313234622c3078313234622c,
  0x202020203078313236332c3078313236332c3078313236332c3078313236332c3078313236332c3078313236332c3078313236332c3078313236332c3078313236332c3078313236332c3078313236332c3078313236332c3078313236332c3078313236332c3078313236332c3078313236332c,
  0x202020203078313236332c3078313236332c3078313236332c3078313236332c3078313236332c3078313236332c3078313236332c3078313236332c3078313236332c3078313236332c3078313236332c3078313236332c3078313236332c3078313236302c3078313236302c3078313236302c,
  0x202020203078313236632c3078313236632c3078313236632c3078313236632c3078313236632c3078313236632c3078313236632c3078313236632c3078313236632c3078313236632c3078313236632c3078313236632c3078313236632c3078313236632c3078313236632c3078313236632c,
  0x202020203078313236632c3078313236632c3078313236632c3078313236632c3078313236632c3078313236632c3078313236632c3078313236632c3078313236632c3078313236632c3078313236632c3078313236632c3078313236632c3078313236632c3078313236632c3078313236632c,
  0x202020203078313237622c3078313237622c3078313237622c3078313237622c3078313237622c3078313237622c3078313237622c3078313237622c3078313237622c3078313237622c3078313237622c3078313237622c3078313237622c3078313237622c3078313237622c3078313237622c,
  0x202020203078313237622c3078313237622c3078313237622c3078313237622c3078313237622c3078313237622c3078313237622c3078313237622c3078313237622c3078313237622c3078313237622c3078313237622c3078313237622c3078313237622c3078313237622c3078313237622c,
  0x202020203078313238312c3078313238312c3078313239302c3078313239332c3078313239332c3078313239332c3078313239332c3078313239332c3078313239332c3078313239332c3078313239332c3078313239332c3078313239332c3078313239332c3078313239332c3078313239332c,
  0x202020203078313239332c3078313239332c3078313239332c3078313239332c3078313239332c3078313239332c3078313239332c3078313239332c3078313239332c3078313239332c3078313239362c3078313239332c3078313239362c3078313239332c3078313239332c3078313239332c,
  0x202020203078313239332c3078313239332c3078313239332c3078313239332c3078313239332c3078313239332c3078313239332c3078313239332c3078313239332c3078313239332c3078313239332c3078313239362c3078313239332c3078313239332c3078313239332c3078313239332c,
  0x202020203078313239302c3078313239302c3078313239302c3078313238342c3078313238342c3078313238342c3078313238342c3078313239302c3078313239302c3078313238612c3078313238372c3078313238642c3078313238642c3078313239632c3078313239392c3078313239392c,
  0x202020203078313239662c3078313239662c3078313239662c3078313239662c3078313239662c3078313239662c3078313239662c3078313239662c3078313239662c3078313239662c3078313239662c3078313239662c3078313239662c3078313239662c3078313239662c3078313239662c,
  0x202020203078313239662c3078313239662c3078313239662c3078313239662c3078313239662c3078313239662c3078313239662c3078313239662c3078313239662c3078313239662c3078313239662c3078313239662c3078313239662c3078313239662c3078313239662c3078313239662c,
  0x202020203078313261352c3078313261352c3078313261352c3078313261322c3078313261322c3078313261322c3078313239662c3078313239662c3078313239662c3078313239662c3078313261322c3078313239662c3078313239662c3078313239662c3078313261352c3078313261322c,
  0x202020203078313261352c3078313261322c3078313239662c3078313239662c3078313239662c3078313239662c3078313239662c3078313239662c3078313239662c3078313239662c3078313239662c3078313239662c3078313239662c3078313239662c3078313239662c3078313239662c,
  0x202020203078313239662c3078313239662c3078313239662c3078313239662c3078313239662c3078313239662c3078313239662c3078313239662c3078313239662c3078313239662c3078313239662c3078313239662c3078313239662c3078313261352c3078313261322c3078313261322c,
  0x202020203078313239662c3078313239662c3078313239662c3078313239662c3078313263362c3078313263362c3078313263362c3078313263362c3078313263362c3078313263362c3078313263362c3078313263362c3078313263362c3078313263362c3078313263362c3078313263392c,
  0x202020203078313263392c3078313263392c3078313261382c3078313938302c3078313364372c3078313264322c3078313364372c3078313364372c3078313364372c3078313364372c3078313364372c3078313364372c3078313364372c3078313364372c3078313364372c3078313364372c,
  0x202020203078313364372c3078313264322c3078313364372c3078313264322c3078313262312c3078313262312c3078313336352c3078313261652c3078313336352c3078313336352c3078313336352c3078313336352c3078313261652c3078313262342c3078313264622c3078313261652c,
  0x202020203078313261652c3078313261652c3078313261652c3078313261652c3078313262342c3078313262372c3078313264622c3078313264622c3078313262372c3078313264622c3078313261652c3078313262372c3078313262372c3078313262612c3078313264622c3078313261652c,
  0x202020203078313261652c3078313264622c3078313262312c3078313262312c3078313364342c3078313364342c3078313364342c3078313364342c3078313364342c3078313364342c3078313364342c3078313364342c3078313364342c3078313364342c3078313263332c3078313263332c,
  0x202020203078313263332c3078313263332c3078313365662c3078313363652c3078313263632c3078313365662c3078313365662c3078313365662c3078313365662c3078313365662c3078313365662c3078313365662c3078313365662c3078313365662c3078313365662c3078313837652c,
  0x202020203078313837652c3078313837652c3078313837652c3078313837652c3078313263362c3078313263362c3078313263362c3078313263362c3078313263362c3078313263362c3078313263362c3078313263362c3078313263362c3078313263362c3078313263362c3078313538312c,
  0x202020203078313538312c3078316164302c3078316164302c3078316164302c3078313263362c3078313263362c3078313263362c3078313263362c3078313263362c3078313263362c3078313263362c3078313263362c3078313263362c3078313263362c3078313263362c3078313263362c,
  0x202020203078313263362c3078313263362c3078313263362c3078313263362c3078313364372c3078313364372c3078313264322c3078313364372c3078313364372c3078313364372c3078313264322c3078313364372c3078313364372c3078313364372c3078313263632c3078313263632c,
  0x202020203078313263632c3078313263632c3078313263632c3078313364312c3078313364342c3078313364342c3078313364342c3078313364342c3078313364342c3078313364342c3078313364342c3078313263662c3078313364342c3078313364342c3078313364342c3078313364342c,
  0x202020203078313364342c3078313364342c3078313364342c3078313263662c3078313364342c3078313364342c3078313364342c3078313364342c3078313364342c3078313364342c3078313364342c3078313364342c3078313364342c3078313364342c3078313435622c3078313435622c,
  0x202020203078316132652c3078316164302c3078316164302c3078316164302c3078313364612c3078313364612c3078313364342c3078313364342c3078313364342c3078313364342c3078313364342c3078313364342c3078313364342c3078313263662c3078313364342c3078313263662c,
  0x202020203078313263662c3078313364342c3078313364612c3078313264352c3078313266392c3078313266392c3078313266392c3078313266392c3078313266392c3078313266392c3078313266392c3078313266392c3078313266392c3078313266392c3078313266392c3078313266392c,
  0x202020203078313266392c3078313266392c3078313266392c3078313266392c3078313266392c3078313266392c3078313266392c3078313266392c3078313266392c3078313266392c3078313266392c3078313266392c3078313266392c3078313266392c3078313266392c3078313266392c,
  0x202020203078313266392c3078313266392c3078313266392c3078313266392c3078313338332c3078313338302c3078313338332c3078313338302c3078313338332c3078313338302c3078313338332c3078313338302c3078313338332c3078313338302c3078313434392c3078313536302c,
  0x202020203078313536302c3078313536302c3078313766612c3078313936652c3078313536302c3078313536302c3078313734392c3078313734392c3078313734392c3078313734332c3078313734392c3078313734332c3078313937312c3078313936652c3078316132622c3078316132382c,
  0x202020203078316132622c3078316132382c3078316132622c3078316132382c3078313361372c3078313361372c3078313361372c3078313361372c3078313361372c3078313361372c3078313361372c3078313361372c3078313361372c3078313361372c3078313361372c3078313361372c,
  0x202020203078313361372c3078313361372c3078313361372c3078313361372c3078313361372c3078313361372c3078313361372c3078313361372c3078313361372c3078313361372c3078313361372c3078313361372c3078313361372c3078313361372c3078313361372c3078313361372c,
  0x202020203078313361372c3078313361372c3078313361372c3078313361372c3078313362632c3078313361642c3078313362632c3078313362662c3078313362662c3078313362662c3078313362662c3078313362662c3078313362662c3078313362662c3078313362662c3078313362662c,
  0x202020203078313362662c3078313362662c3078313362662c3078313362662c3078313362662c3078313362662c3078313362662c3078313362662c3078313362662c3078313362662c3078313362662c3078313362662c3078313362662c3078313362662c3078313362662c3078313362662c,
  0x202020203078313362662c3078313362662c3078313362662c3078313362662c3078313361642c3078313361642c3078313361642c3078313361642c3078313361642c3078313361642c3078313361642c3078313361642c3078313363352c3078313363352c3078313363352c3078313363352c,
  0x202020203078313363352c3078313363352c3078313363352c3078313363352c3078313363352c3078313363352c3078313363352c3078313363352c3078313363352c3078313363352c3078313363352c3078313363352c3078313363352c3078313363352c3078313363352c3078313363352c,
  0x202020203078313363352c3078313363352c3078313363352c3078313363352c3078313363352c3078313363352c3078313363352c3078313363352c3078313363352c3078313363352c3078313363352c3078313363352c3078313363622c3078313363622c3078313363622c3078313363622c,
  0x202020203078313363622c3078313363622c3078313363622c3078313363622c3078313363622c3078313363622c3078313363622c3078313363622c3078313363622c3078313363622c3078313363622c3078313363622c3078313363622c3078313363622c3078313363622c3078313363622c,
  0x202020203078313363622c3078313363622c3078313363622c3078313363622c3078313363622c3078313363622c3078313363622c3078313363622c3078313363622c3078313363622c3078313363622c3078313363622c3078313366622c3078313366382c3078313932332c3078313932332c,
  0x202020203078313932332c3078313932332c3078313932332c3078313932332c3078313932332c3078313932332c3078313932332c3078313932332c3078313932332c3078313932332c3078313932332c3078313932332c3078313932332c3078313932332c3078313932332c3078313932332c,
  0x202020203078313932332c3078313932332c3078313932332c3078313932332c3078313932332c3078313932332c3078313932332c3078313932332c3078313932332c3078313932332c3078313932332c3078313932332c3078313430342c3078313430342c3078313430342c3078313430342c,
  0x202020203078313430342c3078313430342c3078313430342c3078313430342c3078313430342c3078313430342c3078313430342c3078313430342c3078313430342c3078313430342c3078313430342c3078313430342c3078313430342c3078313430342c3078313430342c3078313430342c,
  0x202020203078313430342c3078313430312c3078313430312c3078313430342c3078313430342c3078313430342c3078313430342c3078313430342c3078313430312c3078313430342c3078313430342c3078313430342c3078313430312c3078313430342c3078313430312c3078313430342c,
  0x202020203078313430312c3078313430342c3078313430342c3078313430342c3078313430342c3078313430342c3078313430372c3078313430342c3078313430342c3078313430342c3078313430342c3078313430312c3078313430342c3078313430312c3078313430312c3078313430342c,
  0x202020203078313430342c3078313430342c3078313430342c3078313430342c3078313430342c3078313430342c3078313430342c3078313430342c3078313430342c3078313430342c3078313430342c3078313430342c3078313430312c3078313430312c3078313430312c3078313430312c,
  0x202020203078313430312c3078313430312c3078313430312c3078313430342c3078313430342c3078313430342c3078313430342c3078313430342c3078313430342c3078313430342c3078313430342c3078313430342c3078313430342c3078313430342c3078313430342c3078313430342c,
  0x202020203078313430342c3078313430342c3078313430342c3078313430312c3078313430312c3078313430312c3078313430312c3078313430312c3078313430312c3078313430312c3078313430312c3078313430312c3078313430312c3078313430342c3078313430342c3078313430342c,
  0x202020203078313430342c3078313430342c3078313430342c3078313430342c3078313430342c3078313430342c3078313430342c3078313430342c3078313430342c3078313430342c3078313430312c3078313430312c3078313430312c3078313430312c3078313430312c3078313430312c,
  0x202020203078313430312c3078313430312c3078313430312c3078313430312c3078313430312c3078313430312c3078313538612c3078313538612c3078313430342c3078313430342c3078313430342c3078313430342c3078313430342c3078313430342c3078313430342c3078313430342c,
  0x202020203078313430342c3078313430342c3078313430342c3078313430342c3078313430342c3078313430342c3078313430342c3078313430342c3078313430342c3078313430342c3078313430342c3078313430342c3078313430342c3078313430342c3078313430342c3078313430342c,
  0x202020203078313430342c3078313430342c3078313430342c3078313430342c3078313430342c3078313430342c3078313430342c3078313430342c3078313430342c3078313539362c3078313539302c3078313539302c3078313539362c3078313539362c3078313539362c3078313539362c,
  0x202020203078313539362c3078313539362c3078313539362c3078313539362c3078313539362c3078313764302c3078313764302c3078313764302c3078313430342c3078313430342c3078313430342c3078313430342c3078313430342c3078313430342c3078313539362c3078313430342c,
  0x202020203078313430342c3078313430342c3078313430342c3078313430342c3078313430342c3078313430342c3078313430342c3078313430342c3078313430342c3078313430342c3078313430342c3078313430342c3078313430342c3078313430342c3078313430342c3078313430342c,
  0x202020203078313430342c3078313430342c3078313430342c3078313430342c3078313430342c3078313430342c3078313430342c3078313430342c3078313430342c3078313430342c3078313430342c3078313430342c3078313430342c3078313539362c3078313764302c3078313764302c,
  0x202020203078313430342c3078313430342c3078313430342c3078313430342c3078313430342c3078313430372c3078313430342c3078313430342c3078313430342c3078313430342c3078313430342c3078313430342c3078313430342c3078313430342c3078313430342c3078313430342c,
  0x202020203078313430342c3078313430342c3078313430342c3078313430342c3078313539302c3078313539302c3078313539362c3078313539362c3078313539302c3078313539362c3078313539362c3078313539362c3078313538642c3078313538642c3078313539362c3078313539362c,
  0x202020203078313430342c3078313430342c3078313430372c3078313430372c3078313430372c3078313730312c3078313430342c3078313430372c3078313430342c3078313430342c3078313430372c3078313539392c3078313539392c3078313539362c3078313539362c3078313764302c,
  0x202020203078313764302c3078313764302c3078313764302c3078313764302c3078313539362c3078313539362c3078313539362c3078313539362c3078313539362c3078313539362c3078313539362c3078313539362c3078313539362c3078313539362c3078313539362c3078313539362c,
  0x202020203078313430342c3078313430342c3078313430342c3078313430342c3078313430342c3078313430342c3078313430342c3078313430342c3078313430342c3078313430342c3078313430342c3078313430342c3078313430342c3078313430342c3078313430342c3078313430342c,
  0x202020203078313430342c3078313539302c3078313539302c3078313539362c3078313730312c3078313539362c3078313539302c3078313539362c3078313764302c3078313764302c3078313764302c3078313764332c3078313764332c3078313764332c3078313764332c3078313764332c,
  0x202020203078313430342c3078313430342c3078313430342c3078313430342c3078313430342c3078313430342c3078313430342c3078313430342c3078313430342c3078313430342c3078313430342c3078313430342c3078313430342c3078313430342c3078313430342c3078313430342c,
  0x202020203078313430342c3078313430342c3078313430342c3078313430342c3078313430342c3078313430342c3078313430342c3078313430342c3078313430342c3078313430342c3078313430342c3078313430342c3078313430342c3078313430342c3078313430342c3078313539362c,
  0x202020203078313430342c3078313539362c3078313430372c3078313430372c3078313430342c3078313430342c3078313430372c3078313430372c3078313430372c3078313430372c3078313430372c3078313430372c3078313430372c3078313430372c3078313430372c3078313430372c,
  0x202020203078313430372c3078313430342c3078313430342c3078313430342c3078313430342c3078313430342c3078313430342c3078313430342c3078313430342c3078313430342c3078313430342c3078313430342c3078313430342c3078313430342c3078313430342c3078313430342c,
  0x202020203078313430342c3078313430342c3078313430372c3078313430372c3078313430372c3078313430372c3078313430372c3078313430372c3078313430372c3078313430372c3078313430372c3078313430372c3078313430372c3078313430372c3078313430372c3078313430372c,
  0x202020203078313430372c3078313430372c3078313430372c3078313430372c3078313430372c3078313430342c3078313430342c3078313430342c3078313430372c3078313430342c3078313430342c3078313430342c3078313430342c3078313430372c3078313430372c3078313430372c,
  0x202020203078313430342c3078313430372c3078313430372c3078313430372c3078313430342c3078313430342c3078313430342c3078313430342c3078313430342c3078313430342c3078313430342c3078313430372c3078313430342c3078313430372c3078313430342c3078313430342c,
  0x202020203078313430342c3078313430342c3078313430342c3078313430342c3078313430342c3078313430342c3078313430342c3078313430342c3078313430342c3078313430342c3078313430342c3078313430342c3078313430342c3078313430342c3078313430342c3078313430342c,
  0x202020203078313430342c3078313430342c3078313430342c3078313430342c3078313430342c3078313430342c3078313430342c3078313430342c3078313730312c3078313430342c3078313430342c3078313430342c3078313430342c3078313539362c3078313539302c3078313764302c,
  0x202020203078313435652c3078313435652c3078313435652c3078313435652c3078313538612c3078313538612c3078313538642c3078313538642c3078313538642c3078313539332c3078313539362c3078313764302c3078313764302c3078313764302c3078313764302c3078313735382c,
  0x202020203078313430342c3078313430342c3078313430342c3078313430342c3078313430342c3078313430342c3078313430342c3078313430342c3078313430342c3078313430342c3078313430342c3078313430342c3078313430342c3078313430342c3078313430342c3078313430342c,
  0x202020203078313539302c3078313539302c3078313539302c3078313539302c3078313539302c3078313539302c3078313539302c3078313539362c3078313539362c3078313539302c3078313539302c3078313539362c3078313539392c3078313539392c3078313539362c3078313539362c,
  0x202020203078313539362c3078313539362c3078313838372c3078313539302c3078313539302c3078313539302c3078313539302c3078313539302c3078313539302c3078313539362c3078313539302c3078313539362c3078313539302c3078313539302c3078313539302c3078313539302c,
  0x202020203078313539362c3078313539302c3078313539302c3078313539302c3078313539302c3078313539302c3078313539302c3078313539362c3078313539302c3078313539302c3078313539302c3078313539362c3078313538642c3078313538642c3078313538642c3078313538642c,
  0x202020203078313538642c3078313538642c3078313539362c3078313430342c3078313430342c3078313430342c3078313430342c3078313430342c3078313465382c3078313430612c3078313430612c3078313430612c3078313430612c3078313430612c3078313430612c3078313430612c,
  0x202020203078313430612c3078313430612c3078313430612c3078313430612c3078313430612c3078313430612c3078313430612c3078313430612c3078313430612c3078313465382c3078313430612c3078313430612c3078313430612c3078313465382c3078313430612c3078313465382c,
  0x202020203078313430612c3078313465382c3078313430612c3078313465382c3078313430612c3078313430612c3078313430612c3078313465382c3078313430612c3078313430612c3078313430612c3078313430612c3078313430612c3078313430612c3078313465382c3078313465382c,
  0x202020203078313430612c3078313430612c3078313430612c3078313430612c3078313465382c3078313430612c3078313465382c3078313465382c3078313430612c3078313430612c3078313430612c3078313430612c3078313465382c3078313430612c3078313430612c3078313430612c,
  0x202020203078313430612c3078313430612c3078313430612c3078313430612c3078313430612c3078313430612c3078313430612c3078313430612c3078313430612c3078313730372c3078313730372c3078313764362c3078313764362c3078313430642c3078313430642c3078313430642c,
  0x202020203078313430612c3078313430612c3078313430612c3078313430642c3078313430642c3078313430642c3078313430642c3078313430642c3078313638362c3078313638362c3078313638362c3078313638362c3078313638362c3078313638362c3078313638362c3078313638362c,
  0x202020203078313638362c3078313638362c3078313638362c3078313638362c3078313638362c3078313638362c3078313638362c3078313638362c3078313431302c3078313431302c3078313431302c3078313431302c3078313431302c3078313431302c3078313431302c3078313431302c,
  0x202020203078313431302c3078313431302c3078313431302c3078313431302c3078313431302c3078313431302c3078313431302c3078313431302c3078313431302c3078313431302c3078313431302c3078313431302c3078313431302c3078313431302c3078313431302c3078313431302c,
  0x202020203078313431302c3078313431302c3078313431302c3078313431302c3078313431302c3078313431302c3078313431302c3078313431302c3078313431302c3078313431302c3078313431302c3078313431332c3078313431302c3078313431302c3078313431302c3078313431302c,
  0x202020203078313431302c3078313431302c3078313431302c3078313431302c3078313431302c3078313431302c3078313431302c3078313431302c3078313431302c3078313431302c3078313431302c3078313431302c3078313431332c3078313431332c3078313431332c3078313431302c,
  0x202020203078313431302c3078313431302c3078313431302c3078313431302c3078313431302c3078313431302c3078313431302c3078313431302c3078313431362c3078313431362c3078313431362c3078313431362c3078313431362c3078313431362c3078313431362c3078313431362c,
  0x202020203078313431362c3078313431362c3078313431362c3078313431362c3078313431362c3078313431362c3078313431362c3078313431362c3078313431362c3078313431362c3078313431362c3078313431362c3078313431362c3078313431362c3078313431362c3078313431362c,
  0x202020203078313431362c3078313431362c3078313431362c3078313431362c3078313431362c3078313431362c3078313431362c3078313431362c3078313830332c3078313830332c3078313830302c3078313735622c3078313436342c3078313436342c3078313436342c3078313436342c,
  0x202020203078313436342c3078313436342c3078313436312c3078313436312c3078313436312c3078313436312c3078313436312c3078313436312c3078313436342c3078313436342c3078313436342c3078313436342c3078313436342c3078313436342c3078313436342c3078313436342c,
  0x202020203078313436342c3078313436342c3078313436342c3078313436342c3078313436342c3078313436342c3078313436342c3078313561322c3078313437302c3078313437302c3078313437302c3078313438322c3078313438322c3078313438322c3078313438322c3078313438322c,
  0x202020203078313438322c3078313438322c3078313438322c3078313438322c3078313438322c3078313438322c3078313438322c3078313438322c3078313438322c3078313438322c3078313438322c3078313438322c3078313438322c3078313438322c3078313438322c3078313438322c]

/-- UnicodeData/CharPropsData.py:3202-3361 the lines. -/
def charText15 : List Nat :=
 [0x202020203078313438322c3078313438322c3078313438322c3078313438322c3078313438322c3078313438322c3078313438322c3078313438322c3078313439642c3078313439642c3078313439642c3078313439642c3078313439642c3078313439642c3078313439642c3078313439642c,
  0x202020203078313439642c3078313439642c3078313439642c3078313439642c3078313439642c3078313439642c3078313439642c3078313439642c3078313439642c3078313439642c3078313439642c3078313439642c3078313439642c3078313439642c3078313439642c3078313439642c,
  0x202020203078313439642c3078313439642c3078313439642c3078313439642c3078313439642c3078313439642c3078313439642c3078313439642c3078313461332c3078313461332c3078313461332c3078313461332c3078313461332c3078313461332c3078313461332c3078313461332c,
  0x202020203078313461332c3078313461332c3078313461332c3078313461332c3078313461332c3078313461332c3078313461332c3078313461332c3078313461332c3078313461332c3078313461332c3078313461332c3078313461332c3078313461332c3078313461332c3078313461332c,
  0x202020203078313461332c3078313461332c3078313461332c3078313461332c3078313461332c3078313461332c3078313461332c3078316133342c3078313461362c3078313461362c3078313461362c3078313461362c3078313461362c3078313461362c3078313461362c3078313461362c,
  0x202020203078313461362c3078313461362c3078313461362c3078313461362c3078313461362c3078313461362c3078313461362c3078313461362c3078313461362c3078313461362c3078313461362c3078313461362c3078313461362c3078313461362c3078313461362c3078313461362c,
  0x202020203078313461362c3078313461362c3078313461362c3078313461362c3078313461362c3078313461362c3078313461362c3078313461362c3078313461632c3078313461632c3078313462382c3078313462652c3078313462652c3078313462652c3078313462652c3078313462652c,
  0x202020203078313462652c3078313462652c3078313462652c3078313462652c3078313462652c3078313462652c3078313462652c3078313462652c3078313462652c3078313462652c3078313462652c3078313462652c3078313462652c3078313462652c3078313462652c3078313462652c,
  0x202020203078313462652c3078313462652c3078313462652c3078313462652c3078313462652c3078313462652c3078313462652c3078313462652c3078313462652c3078313462652c3078313462652c3078313462382c3078313462382c3078313462382c3078313461632c3078313461632c,
  0x202020203078313461632c3078313461632c3078313461632c3078313461632c3078313461632c3078313461632c3078313461632c3078313462382c3078313462622c3078313462652c3078313463312c3078313463312c3078313462652c3078313463342c3078313463342c3078313461662c,
  0x202020203078313462322c3078313736342c3078313736372c3078313736372c3078313736372c3078313561622c3078316164632c3078316164392c3078313462352c3078313462352c3078313462352c3078313462352c3078313462352c3078313462352c3078313462352c3078313462352c,
  0x202020203078313462352c3078313462352c3078313561382c3078313736642c3078313737302c3078313736612c3078313737332c3078313737332c3078313464662c3078313464662c3078313464662c3078313464662c3078313464662c3078313464662c3078313464662c3078313464662c,
  0x202020203078313464662c3078313464662c3078313464662c3078313464662c3078313464662c3078313464662c3078313464662c3078313464662c3078313464662c3078313464662c3078313464662c3078313464662c3078313464662c3078313464662c3078313464662c3078313464662c,
  0x202020203078313464662c3078313464662c3078313464662c3078313464662c3078313464662c3078313464662c3078313464662c3078313464662c3078313533632c3078313533632c3078313533632c3078313533632c3078313533632c3078313533632c3078313533632c3078313533632c,
  0x202020203078313533632c3078313533632c3078313533632c3078313533632c3078313533632c3078313533632c3078313533632c3078313533632c3078313533632c3078313533632c3078313533632c3078313533632c3078313533632c3078313533632c3078313533632c3078313533632c,
  0x202020203078313533632c3078313533632c3078313935362c3078313935362c3078313935362c3078313533632c3078313533632c3078313533632c3078313533632c3078313533632c3078313533632c3078313533632c3078313533632c3078313533632c3078313533632c3078313533632c,
  0x202020203078313533632c3078316132322c3078313533632c3078313533632c3078313533632c3078313533632c3078313533632c3078313533632c3078313533632c3078313533632c3078313862612c3078313935362c3078313935362c3078313935362c3078313935362c3078313935362c,
  0x202020203078313935362c3078313935362c3078313935362c3078313935362c3078313935362c3078313935362c3078313935362c3078313935362c3078313539302c3078313539302c3078313539362c3078313539362c3078313539362c3078313539302c3078313539302c3078313539302c,
  0x202020203078313539302c3078313539302c3078313539302c3078313539302c3078313539302c3078313539302c3078313539302c3078313539302c3078313539302c3078313539362c3078313539362c3078313539362c3078313538642c3078313538642c3078313538642c3078313538642c,
  0x202020203078313538642c3078313538642c3078313538642c3078313538642c3078313539362c3078313539362c3078313539362c3078313539302c3078313539302c3078313539302c3078313539302c3078313539302c3078313539302c3078313539302c3078313539302c3078313539362c,
  0x202020203078313539302c3078313539302c3078313539362c3078313539362c3078313539362c3078313539362c3078313539302c3078313539302c3078313539392c3078313539302c3078313539302c3078313539302c3078313539302c3078313730342c3078313730342c3078313539302c,
  0x202020203078313539302c3078313539302c3078313539302c3078313539302c3078313539302c3078313539302c3078313539302c3078313539302c3078313838342c3078313539362c3078313539302c3078313539302c3078313539362c3078313539302c3078313539302c3078313539302c,
  0x202020203078313539302c3078313539302c3078313539302c3078313539302c3078313539302c3078313539362c3078313539362c3078313539302c3078313539302c3078313539302c3078313539302c3078313539302c3078313539302c3078313539302c3078313539302c3078313539302c,
  0x202020203078313539362c3078313539302c3078313539302c3078313539302c3078313562612c3078313562612c3078313562612c3078313562612c3078313562612c3078313562612c3078313562612c3078313562612c3078313562612c3078313562612c3078313562612c3078313562612c,
  0x202020203078313562612c3078313562612c3078313562612c3078313562612c3078313562612c3078313562612c3078313562612c3078313562612c3078313562612c3078313562612c3078313562612c3078313562612c3078313562612c3078313562612c3078313562612c3078313562612c,
  0x202020203078313562612c3078313562612c3078313562612c3078313562612c3078313563632c3078313563632c3078313563632c3078313563632c3078313563632c3078313563632c3078313563632c3078313563632c3078313563632c3078313563632c3078313563632c3078313563632c,
  0x202020203078313563632c3078313563632c3078313563632c3078313563632c3078313563632c3078313563632c3078313563632c3078313563632c3078313563632c3078313563632c3078313563632c3078313563632c3078313563632c3078313563632c3078313563632c3078313563632c,
  0x202020203078313563632c3078313563632c3078313563632c3078313563632c3078313564322c3078313564322c3078313564322c3078313564322c3078313564322c3078313564322c3078313564322c3078313564322c3078313564322c3078313564322c3078313564322c3078313564322c,
  0x202020203078313564322c3078313564322c3078313564322c3078313564322c3078313564322c3078313564322c3078313564322c3078313564322c3078313564322c3078313564322c3078313564322c3078313564322c3078313564322c3078313564322c3078313564322c3078313564322c,
  0x202020203078313564322c3078313564322c3078313564322c3078313564322c3078313564352c3078313564352c3078313564352c3078313564352c3078313564352c3078313564352c3078313564352c3078313564352c3078313564352c3078313564352c3078313564352c3078313564352c,
  0x202020203078313564352c3078313564352c3078313564352c3078313564352c3078313564352c3078313564352c3078313564352c3078313564352c3078313564352c3078313564352c3078313564352c3078313564352c3078313564352c3078313564352c3078313564352c3078313564352c,
  0x202020203078313564352c3078313564352c3078313564352c3078313564352c3078313631342c3078313631342c3078313631342c3078313631342c3078313631342c3078313631342c3078313631342c3078313631342c3078313631342c3078313631342c3078313631342c3078313631342c,
  0x202020203078313631342c3078313631342c3078313631342c3078313631342c3078313631342c3078313631342c3078313631342c3078313631342c3078313631342c3078313631342c3078313631342c3078313631342c3078313631342c3078313631342c3078313631342c3078313631342c,
  0x202020203078313631342c3078313631342c3078313631342c3078313630352c3078313631642c3078313631642c3078313631642c3078313631642c3078313631642c3078313631642c3078313631642c3078313631642c3078313631642c3078313631642c3078313631642c3078313631642c,
  0x202020203078313631642c3078313631642c3078313631642c3078313631642c3078313631642c3078313631642c3078313631642c3078313631642c3078313631642c3078313631642c3078313631642c3078313631642c3078313631642c3078313631642c3078313631642c3078313631372c,
  0x202020203078313632302c3078313632302c3078313632302c3078313632302c3078313632332c3078313632332c3078313632332c3078313632332c3078313632332c3078313632332c3078313632332c3078313632332c3078313632332c3078313632332c3078313632332c3078313632332c,
  0x202020203078313632332c3078313632332c3078313632332c3078313632332c3078313632332c3078313632332c3078313632332c3078313632332c3078313632332c3078313632332c3078313632332c3078313632332c3078313632332c3078313632332c3078313632332c3078313632332c,
  0x202020203078313632332c3078313632332c3078313632332c3078313632332c3078313633652c3078313633652c3078313633652c3078313633652c3078313633652c3078313633652c3078313633652c3078313633652c3078313633352c3078313633652c3078313633652c3078313633652c,
  0x202020203078313633652c3078313633652c3078313633652c3078313633652c3078313633652c3078313633652c3078313633652c3078313633652c3078313633652c3078313633652c3078313633652c3078313633652c3078313633652c3078313633652c3078313633652c3078313633652c,
  0x202020203078313633652c3078313633652c3078313633652c3078313633652c3078313634372c3078313634372c3078313634372c3078313634372c3078313634372c3078313634372c3078313634372c3078313634372c3078313634372c3078313634372c3078313634372c3078313634372c,
  0x202020203078313634372c3078313634372c3078313634372c3078313634372c3078313634372c3078313634372c3078313634372c3078313634372c3078313634372c3078313634372c3078313634372c3078313634372c3078313634372c3078313634372c3078313634372c3078313634372c,
  0x202020203078313634372c3078313634372c3078313634372c3078313634372c3078313635392c3078313635392c3078313635392c3078313635392c3078313635392c3078313635392c3078313635392c3078313635392c3078313635392c3078313635392c3078313635392c3078313635392c,
  0x202020203078313635392c3078313635392c3078313635392c3078313635392c3078313635362c3078313635362c3078313635362c3078313634612c3078313634612c3078313634612c3078313634612c3078313634612c3078313634612c3078313634612c3078313634612c3078313635362c,
  0x202020203078313635362c3078313634612c3078313635362c3078313634642c3078313635392c3078313635392c3078313635392c3078313635392c3078313635392c3078313635392c3078313635392c3078313635392c3078313635392c3078313635392c3078313635392c3078313635392c,
  0x202020203078313635392c3078313635392c3078313635392c3078313635392c3078313635392c3078313635392c3078313635392c3078313635392c3078313635392c3078313635392c3078313635392c3078313635392c3078313635392c3078313635392c3078313635392c3078313635392c,
  0x202020203078313635392c3078313635392c3078313635392c3078313635392c3078313637642c3078313637642c3078313637642c3078313637642c3078313637642c3078313637642c3078313637642c3078313637642c3078313637642c3078313637642c3078313637642c3078313637642c,
  0x202020203078313637642c3078313637642c3078313637642c3078313637642c3078313637642c3078313637642c3078313637642c3078313637642c3078313637642c3078313637642c3078313637642c3078313637642c3078313637642c3078313637642c3078313637642c3078313637642c,
  0x202020203078313637642c3078313637612c3078313637612c3078313637612c3078313638362c3078313638362c3078313638362c3078313638362c3078313638362c3078313638362c3078313638362c3078313638362c3078313638362c3078313638362c3078313638362c3078313638362c,
  0x202020203078313638362c3078313638362c3078313638362c3078313638362c3078313638362c3078313638362c3078313638362c3078313638362c3078313638362c3078313638362c3078313638632c3078313638632c3078313638632c3078313638392c3078313638392c3078313638392c,
  0x202020203078313638362c3078313638362c3078313638362c3078313638362c3078313639622c3078313639622c3078313639622c3078313639622c3078313639622c3078313639622c3078313639622c3078313639622c3078313639622c3078313639622c3078313639622c3078313639622c,
  0x202020203078313639622c3078313639622c3078313639622c3078313639622c3078313638662c3078313638662c3078313638662c3078313638662c3078313638662c3078313638662c3078313638662c3078313661312c3078313661312c3078313639352c3078313639322c3078313639322c,
  0x202020203078313639322c3078313639322c3078313639322c3078313639322c3078313639622c3078313639622c3078313639622c3078313639622c3078313639622c3078313639622c3078313639622c3078313639622c3078313639622c3078313639622c3078313639622c3078313639622c,
  0x202020203078313639622c3078313639622c3078313639622c3078313639622c3078313639622c3078313639622c3078313639622c3078313639622c3078313639622c3078313639622c3078313639622c3078313639622c3078313639622c3078313639622c3078313639622c3078313639622c,
  0x202020203078313639622c3078313639622c3078313639622c3078313639622c3078313661372c3078313661372c3078313661372c3078313661372c3078313661372c3078313661372c3078313661372c3078313661372c3078313661372c3078313661372c3078313661372c3078313661372c,
  0x202020203078313661372c3078313661372c3078313661372c3078313661372c3078313661372c3078313661372c3078313661372c3078313661372c3078313661372c3078313661372c3078313661372c3078313661342c3078313661342c3078313661342c3078313661342c3078313661342c,
  0x202020203078313661342c3078313661342c3078313661342c3078313661342c3078313661612c3078313661612c3078313661612c3078313661612c3078313661612c3078313661612c3078313661612c3078313661612c3078313661612c3078313661612c3078313661612c3078313661612c,
  0x202020203078313661612c3078313661612c3078313661612c3078313661612c3078313661612c3078313661612c3078313661612c3078313661612c3078313661612c3078313661612c3078313661612c3078313661612c3078313661612c3078313661612c3078313661612c3078313661612c,
  0x202020203078313661612c3078313661612c3078313661612c3078313661612c3078313663652c3078313663652c3078313663652c3078313663652c3078313663652c3078313663652c3078313663652c3078313663652c3078313663652c3078313663652c3078313663652c3078313663652c,
  0x202020203078313663652c3078313663652c3078313663652c3078313663652c3078313663652c3078313663652c3078313663652c3078313663652c3078313663652c3078313663652c3078313663652c3078313663652c3078313663652c3078313663652c3078313663652c3078313663652c,
  0x202020203078313663652c3078313663652c3078313663652c3078313663652c3078313664372c3078313664372c3078313664372c3078313664372c3078313664372c3078313664372c3078313664372c3078313664372c3078313664372c3078313664372c3078313664372c3078313664372c,
  0x202020203078313664372c3078313664372c3078313664372c3078313664372c3078313664372c3078313664372c3078313664372c3078313664372c3078313664372c3078313664372c3078313664372c3078313664372c3078313664372c3078313664372c3078313664372c3078313664372c,
  0x202020203078313664372c3078313664372c3078313664372c3078313664372c3078313665662c3078313665662c3078313665662c3078313665662c3078313665662c3078313665662c3078313665662c3078313665662c3078313665662c3078313665662c3078313665662c3078313665662c,
  0x202020203078313665662c3078313665662c3078313665662c3078313665662c3078313664612c3078313665392c3078313665392c3078313664612c3078313664612c3078313664612c3078313664612c3078313664612c3078313664612c3078313665392c3078313664612c3078313665632c,
  0x202020203078313665632c3078313664612c3078313665632c3078313664612c3078313665662c3078313665662c3078313665662c3078313665662c3078313665662c3078313665662c3078313665662c3078313665662c3078313665662c3078313665662c3078313665662c3078313665662c,
  0x202020203078313665662c3078313665662c3078313665662c3078313665662c3078313665662c3078313665662c3078313665662c3078313665662c3078313665662c3078313665662c3078313665662c3078313665662c3078313665662c3078313665662c3078313665662c3078313665662c,
  0x202020203078313665662c3078313665662c3078313665662c3078313665662c3078313666382c3078313666382c3078313666382c3078313666382c3078313666382c3078313666382c3078313666382c3078313666382c3078313666382c3078313666382c3078313666382c3078313666382c,
  0x202020203078313666382c3078313666382c3078313666382c3078313666382c3078313666382c3078313666382c3078313666382c3078313666382c3078313666382c3078313666382c3078313666382c3078313666382c3078313666382c3078313666382c3078313666382c3078313666382c,
  0x202020203078313666382c3078313666382c3078313666382c3078313666382c3078313666652c3078313666652c3078313666652c3078313666652c3078313666652c3078313666652c3078313666652c3078313666652c3078313666652c3078313666652c3078313666652c3078313666652c,
  0x202020203078313666652c3078313666652c3078313666652c3078313666652c3078313666652c3078313666652c3078313666652c3078313666652c3078313666652c3078313666652c3078313666652c3078313666652c3078313666652c3078313666652c3078313666652c3078313666652c,
  0x202020203078313666652c3078313666652c3078313666652c3078313666652c3078313935362c3078313935362c3078313935362c3078313935362c3078313935362c3078313935362c3078313935362c3078313935362c3078313935362c3078313935362c3078313935362c3078313935362c,
  0x202020203078313734302c3078313734302c3078313734302c3078313734302c3078313935362c3078313935362c3078313935362c3078313935362c3078313935362c3078313935362c3078313935362c3078313935362c3078313935362c3078313935362c3078313935362c3078313935362c,
  0x202020203078313935362c3078313935362c3078313935362c3078316132322c3078313736312c3078313736312c3078313736312c3078313736312c3078313736312c3078313736312c3078313736312c3078313736312c3078313736312c3078313736312c3078313736312c3078313736312c,
  0x202020203078313736312c3078313736312c3078313736312c3078313736312c3078313736312c3078313736312c3078313736312c3078313736312c3078313736312c3078313736312c3078313736312c3078313736312c3078313736312c3078313736312c3078313736312c3078313736312c,
  0x202020203078313736312c3078313736312c3078313736312c3078313736312c3078313739642c3078313739642c3078313739642c3078313739642c3078313739642c3078313739642c3078313739642c3078313739642c3078313739642c3078313739642c3078313739642c3078313739642c,
  0x202020203078313739642c3078313739642c3078313739642c3078313739642c3078313739642c3078313739642c3078313739642c3078313739642c3078313739642c3078313739642c3078313739642c3078313739642c3078313739642c3078313739642c3078313739642c3078313739642c,
  0x202020203078313739642c3078313739642c3078313739642c3078313739642c3078313739642c3078313739642c3078313761332c3078313761302c3078313739642c3078313739642c3078313739642c3078313739642c3078313739642c3078313739642c3078313739642c3078313739642c,
  0x202020203078313739642c3078313739642c3078313739642c3078313739642c3078313739642c3078313739642c3078313739642c3078313739642c3078313761362c3078313761362c3078313761362c3078313761362c3078313761362c3078313761362c3078313761362c3078313761362c,
  0x202020203078313761362c3078313761362c3078313761362c3078313761362c3078313761362c3078313761362c3078313761362c3078313761362c3078313761362c3078313761362c3078313761362c3078313761362c3078313761362c3078313761362c3078313761362c3078313761362c,
  0x202020203078313761362c3078313761362c3078313761362c3078313761362c3078313761362c3078313761362c3078313761362c3078313761362c3078313761392c3078313761392c3078313761392c3078313761392c3078313761392c3078313761392c3078313761392c3078313761392c,
  0x202020203078313761392c3078313761392c3078313761392c3078313761392c3078313761392c3078313761392c3078313761392c3078313761392c3078313761392c3078313761392c3078313761392c3078313761392c3078313761392c3078313761392c3078313761392c3078313761392c,
  0x202020203078313761392c3078313761392c3078313761392c3078313761392c3078313761392c3078313761392c3078313761392c3078313761392c3078313762622c3078313762622c3078313762622c3078313762622c3078313762622c3078313762622c3078313762622c3078313762622c,
  0x202020203078313762622c3078313762622c3078313762622c3078313762622c3078313762622c3078313762622c3078313762622c3078313762622c3078313762622c3078313762622c3078313762622c3078313762622c3078313762622c3078313762622c3078313762622c3078313762622c,
  0x202020203078313762622c3078313762622c3078313762622c3078313762622c3078313762622c3078313762622c3078313762622c3078313762622c3078313762652c3078313762652c3078313762652c3078313762652c3078313762652c3078313762652c3078313762652c3078313762652c,
  0x202020203078313762652c3078313762652c3078313762652c3078313762652c3078313762652c3078313762652c3078313762652c3078313762652c3078313762652c3078313762652c3078313762652c3078313762652c3078313762652c3078313762652c3078313762652c3078313762652c,
  0x202020203078313762652c3078313762652c3078313762652c3078313762652c3078313762652c3078313762652c3078313762652c3078313762652c3078313763312c3078313763312c3078313763312c3078313763312c3078313763312c3078313763312c3078313763312c3078313763312c,
  0x202020203078313763312c3078313763312c3078313763312c3078313763312c3078313763312c3078313763312c3078313763312c3078313763312c3078313763312c3078313763312c3078313763312c3078313763312c3078313763312c3078313763312c3078313763312c3078313763312c,
  0x202020203078313763312c3078313763312c3078313763312c3078313763312c3078313763312c3078313763312c3078313763312c3078313763312c3078313763312c3078313763312c3078313763312c3078313763342c3078313763342c3078313763342c3078313763342c3078313763312c,
  0x202020203078313763312c3078313763312c3078313763312c3078313763312c3078313763312c3078313763312c3078313763312c3078313763312c3078313763312c3078313763312c3078313763312c3078313763312c3078313763312c3078313763342c3078313763342c3078313763342c,
  0x202020203078313763342c3078313763342c3078313763342c3078313763342c3078313763342c3078313763312c3078313763342c3078313763342c3078313763342c3078313763342c3078313763342c3078313763342c3078313763342c3078313763342c3078313763342c3078313763342c,
  0x202020203078313763342c3078313763342c3078313763342c3078313763342c3078313763342c3078313763342c3078313763342c3078313763342c3078313763342c3078313763342c3078313763342c3078313763342c3078313763342c3078313763342c3078313763342c3078313763342c,
  0x202020203078313763342c3078313763342c3078313763342c3078313763342c3078313763342c3078313763342c3078313763342c3078313763342c3078313764632c3078313764632c3078313764632c3078313764632c3078313764632c3078313764632c3078313764632c3078313764632c,
  0x202020203078313764632c3078313764632c3078313764632c3078313764632c3078313764632c3078313764632c3078313764632c3078313764632c3078313764632c3078313764632c3078313764632c3078313764632c3078313764632c3078313764632c3078313764632c3078313764632c,
  0x202020203078313764632c3078313764632c3078313764632c3078313764632c3078313764632c3078313764632c3078313764632c3078313764632c3078313863362c3078313863362c3078313863362c3078313863362c3078313863362c3078313863362c3078313863362c3078313863362c,
  0x202020203078313863362c3078313863362c3078313863362c3078313863362c3078316233662c3078316139342c3078316139342c3078316139372c3078313764662c3078313764662c3078313764662c3078313764662c3078313764662c3078313764662c3078313764662c3078313764662c,
  0x202020203078313765322c3078313839302c3078313839302c3078313839302c3078313839302c3078313839302c3078313839302c3078313932632c3078313764662c3078313764662c3078313764662c3078313764662c3078313764662c3078313838642c3078313838642c3078313838642c,
  0x202020203078313838642c3078313838642c3078313838642c3078313838642c3078313838642c3078313838642c3078313838642c3078313838642c3078313838642c3078313838642c3078313932392c3078313932392c3078313932392c3078313932392c3078313932392c3078313932392c,
  0x202020203078316130612c3078316130612c3078316130612c3078316130612c3078316130612c3078316130612c3078316130612c3078316130612c3078313838642c3078313838642c3078313838642c3078313838642c3078313838642c3078313838642c3078313839302c3078313838642c,
  0x202020203078313932392c3078313932392c3078313932392c3078313932392c3078313932392c3078313932392c3078313932392c3078313932392c3078313839302c3078313932632c3078313932632c3078313839302c3078313839302c3078313839302c3078313839302c3078313839302c,
  0x202020203078313839302c3078313839302c3078313838642c3078313830662c3078313839302c3078313839302c3078313839302c3078316139342c3078313838642c3078313838642c3078313838642c3078313838642c3078313838642c3078313838642c3078313830662c3078313838642c,
  0x202020203078313838642c3078313838642c3078313838642c3078313838642c3078313932392c3078316130612c3078316130612c3078316130612c3078313838642c3078313838642c3078313838642c3078313838642c3078313838642c3078313838642c3078313838642c3078313838642c,
  0x202020203078313838642c3078313838642c3078313838642c3078313838642c3078313838642c3078313838642c3078313838642c3078313932392c3078313832342c3078313832342c3078313832312c3078313832312c3078313832312c3078313832312c3078313832312c3078313832312c,
  0x202020203078313832312c3078313832312c3078313832312c3078313832312c3078313832312c3078313832312c3078313832312c3078313832312c3078313832312c3078313832312c3078313832312c3078313832312c3078313832312c3078313832312c3078313832312c3078313832312c,
  0x202020203078313832312c3078313832312c3078313832312c3078313832312c3078313832312c3078313832312c3078313832312c3078313832312c3078313832342c3078313832342c3078313832342c3078313832342c3078313832342c3078313832342c3078313832342c3078313832342c,
  0x202020203078313832342c3078313832342c3078313832342c3078313832342c3078313832342c3078313832342c3078313832342c3078313832342c3078313832342c3078313832342c3078313832342c3078313832342c3078313832342c3078313832342c3078313832342c3078313832342c,
  0x202020203078313832342c3078313832342c3078313832342c3078313832342c3078313832342c3078313832342c3078313832342c3078313832342c3078313837322c3078313837322c3078313837322c3078313837322c3078313837322c3078313837322c3078313837322c3078313837322c,
  0x202020203078313837322c3078313837322c3078313837322c3078313837322c3078313837322c3078313837322c3078313837322c3078313837322c3078313837322c3078313837322c3078313837322c3078313837322c3078313837322c3078313836662c3078313836662c3078313836662c,
  0x202020203078313835612c3078313835612c3078313835612c3078313835612c3078313835612c3078313835612c3078313835612c3078313835612c3078313837322c3078313837322c3078313837322c3078313837322c3078313837322c3078313837322c3078313837322c3078313837322c,
  0x202020203078313837322c3078313837322c3078313837322c3078313837322c3078313837322c3078313837322c3078313837322c3078313837322c3078313837322c3078313837322c3078313837322c3078313837322c3078313837322c3078313837322c3078313837322c3078313837322c,
  0x202020203078313837322c3078313837322c3078313837322c3078313837322c3078313837322c3078313837322c3078313837322c3078313837322c3078313839362c3078313839362c3078313839362c3078313839362c3078313839362c3078313839362c3078313839362c3078313839362c,
  0x202020203078313839362c3078313839362c3078313839362c3078313839362c3078313839362c3078313839362c3078313839362c3078313839362c3078313839362c3078313839362c3078313839362c3078313839362c3078313839362c3078313839362c3078313839362c3078313839362c,
  0x202020203078313839362c3078313839362c3078313839362c3078313839362c3078313839362c3078313839362c3078313839362c3078313839362c3078313839392c3078313839392c3078313839392c3078313839392c3078313839392c3078313839392c3078313839392c3078313839392c,
  0x202020203078313839392c3078313839392c3078313839392c3078313839392c3078313839392c3078313839392c3078313839392c3078313839392c3078313839392c3078313839392c3078313839392c3078313839392c3078313839392c3078313839392c3078313839392c3078313839392c,
  0x202020203078313839392c3078313839392c3078313839392c3078313839392c3078313839392c3078313839392c3078313839392c3078313839392c3078313839392c3078313839392c3078313839392c3078316234382c3078316234382c3078316234382c3078316234382c3078316234382c,
  0x202020203078316234382c3078316234382c3078316234382c3078316234382c3078316234382c3078316234382c3078316234382c3078316234382c3078313866302c3078313866302c3078313866302c3078313866302c3078316134362c3078316134362c3078313866332c3078313866332c,
  0x202020203078313866332c3078313866332c3078313864622c3078313864622c3078313864622c3078313864622c3078313864622c3078313864622c3078313864622c3078313864622c3078313864622c3078313864622c3078313864622c3078313864622c3078313864622c3078313865642c,
  0x202020203078313864652c3078313865312c3078313865342c3078313866362c3078313866362c3078313939352c3078313865372c3078313865372c3078313866302c3078313866302c3078313866302c3078313866302c3078313866302c3078313866302c3078313866302c3078313866302c,
  0x202020203078313866302c3078313866302c3078313866302c3078313866302c3078313866302c3078313866302c3078313866302c3078313866302c3078313866302c3078313866302c3078313866302c3078313866302c3078313866302c3078313866302c3078313866302c3078313866302c,
  0x202020203078313866302c3078313866302c3078313866302c3078313866302c3078313866302c3078313866302c3078313866302c3078313866302c3078313931312c3078313931312c3078313931312c3078313931312c3078313931312c3078313931312c3078313931312c3078313931312c,
  0x202020203078313931312c3078313931312c3078313931312c3078313931312c3078313931312c3078313931312c3078313931312c3078313931312c3078313931312c3078313931312c3078313931312c3078313866632c3078313930322c3078313866662c3078313866662c3078313866662c,
  0x202020203078313866662c3078313930652c3078313931342c3078313866662c3078313866662c3078313866662c3078313866662c3078313930622c3078313931312c3078313866662c3078313866662c3078313866662c3078313866662c3078313866662c3078313866662c3078313866662c,
  0x202020203078313866662c3078313866662c3078313866662c3078313931312c3078313931312c3078313931312c3078313931312c3078313931312c3078313931312c3078313931312c3078313931312c3078313931312c3078313931312c3078313931312c3078313931312c3078313931312c,
  0x202020203078313931312c3078313931312c3078313931312c3078313931312c3078313931312c3078313931312c3078313931312c3078313931312c3078313932332c3078313932332c3078313932332c3078313932332c3078313932332c3078313932332c3078313932332c3078313932332c,
  0x202020203078313932332c3078313932332c3078313932332c3078313932332c3078313932332c3078313932332c3078313932332c3078313932332c3078313932332c3078313932332c3078313932332c3078313932332c3078313932332c3078313932332c3078313932332c3078313932332c,
  0x202020203078313932332c3078313932332c3078313932332c3078313932332c3078313932332c3078313932332c3078313932332c3078313932332c3078313932392c3078313932392c3078313932392c3078313932392c3078313932392c3078313932392c3078313932392c3078316130612c,
  0x202020203078316130612c3078316130612c3078316130612c3078316130612c3078316130612c3078316130612c3078316130612c3078316130612c3078316130612c3078316130612c3078316130612c3078316130612c3078316130612c3078316130612c3078316130612c3078316130612c,
  0x202020203078316130612c3078316130612c3078316130612c3078316130612c3078316130612c3078316130612c3078316130612c3078316130612c3078313933322c3078313933322c3078313933322c3078313933322c3078313933322c3078313933322c3078313933322c3078313933322c,
  0x202020203078313933322c3078313933322c3078313933322c3078313933322c3078313933322c3078313933322c3078313933322c3078313933322c3078313933322c3078313933322c3078313933322c3078313933322c3078313933322c3078313933322c3078313933322c3078313933322c,
  0x202020203078313933322c3078313933322c3078313933322c3078313933322c3078313933322c3078313933322c3078313933322c3078313933322c3078313933382c3078313933382c3078313933382c3078313933382c3078313933382c3078313933382c3078313933382c3078313933382c,
  0x202020203078313933382c3078313933382c3078313933382c3078313933382c3078313933382c3078313933382c3078313933382c3078313933382c3078313933382c3078313933382c3078313933382c3078313933382c3078313933382c3078313933382c3078313933382c3078313933382c,
  0x202020203078313933382c3078313933382c3078313933382c3078313933382c3078313933382c3078313933382c3078313933382c3078313933382c3078313961612c3078313961612c3078313961612c3078313961612c3078313961612c3078313961612c3078313961612c3078313961612c,
  0x202020203078313961612c3078313961612c3078313961612c3078313961612c3078313961612c3078313961612c3078313961612c3078313961612c3078313961612c3078313961612c3078313961612c3078313961612c3078313961612c3078313961612c3078313961612c3078313961612c,
  0x202020203078313961612c3078313961612c3078313961612c3078313961612c3078313961612c3078313961612c3078313961612c3078313961612c3078313963352c3078313963352c3078313963352c3078313963352c3078313963352c3078313963352c3078313963352c3078313963352c,
  0x202020203078313963352c3078313963352c3078313963352c3078313963352c3078313963352c3078313963352c3078313963352c3078313963352c3078313963352c3078313963352c3078313963352c3078313963352c3078313963352c3078313963352c3078313963352c3078313963352c,
  0x202020203078313963352c3078313963352c3078313963352c3078313963352c3078313963352c3078313963352c3078313963352c3078313963352c3078313963622c3078313963622c3078313963622c3078313963622c3078313963622c3078313963622c3078313963622c3078313963622c,
  0x202020203078313963622c3078313963622c3078313963622c3078313963622c3078313963622c3078313963622c3078313963622c3078313963622c3078313963622c3078313963622c3078313963622c3078313963622c3078313963622c3078313963622c3078313963622c3078313963622c,
  0x202020203078313963622c3078313963622c3078313963622c3078313963622c3078313963622c3078313963622c3078313963622c3078313963622c3078313965362c3078313965362c3078313965362c3078313965362c3078313965362c3078313965362c3078313965362c3078313965362c,
  0x202020203078313965362c3078313965362c3078313965362c3078313965362c3078313965362c3078313965362c3078313965362c3078313965362c3078313965362c3078313965362c3078313965362c3078313965362c3078313965362c3078313965362c3078313965362c3078313965362c,
  0x202020203078313965362c3078313965362c3078313965362c3078313965362c3078313965362c3078313965362c3078313965362c3078313965362c3078313965392c3078313965392c3078313965392c3078313965392c3078313965392c3078313965392c3078313965392c3078313965392c,
  0x202020203078313965392c3078313965392c3078313965392c3078313965392c3078313965392c3078313965392c3078313965392c3078313965392c3078313965392c3078313965392c3078313965392c3078313965392c3078313965392c3078313965392c3078313965392c3078313965392c,
  0x202020203078313965392c3078313965392c3078313965392c3078313965392c3078313965392c3078313965392c3078313965392c3078313965392c3078313966322c3078313966322c3078313966322c3078313966322c3078313966322c3078313966322c3078313966322c3078313966322c,
  0x202020203078313966322c3078313966322c3078313966322c3078313966322c3078313966322c3078313966322c3078313966322c3078313966322c3078313966322c3078313966322c3078313966322c3078313966322c3078313966322c3078313966322c3078313966322c3078313966322c,
  0x202020203078313966322c3078313966322c3078313966322c3078313966322c3078313966322c3078313965662c3078313965662c3078313965662c3078316130612c3078316130612c3078316130612c3078316233632c3078316233632c3078316139342c3078316139342c3078316139342c,
  0x202020203078316139342c3078316139342c3078316139342c3078316233632c3078316233632c3078316233632c3078316139342c3078316139342c3078316130642c3078316130642c3078316130642c3078316130642c3078316130612c3078316131302c3078316131302c3078316130612c,
  0x202020203078316131302c3078316131302c3078316139342c3078316139372c3078316139342c3078316139342c3078316139342c3078316139342c3078316134392c3078316134392c3078316134392c3078316134392c3078316134392c3078316134392c3078316134392c3078316134392c,
  0x202020203078316134392c3078316134392c3078316134392c3078316134392c3078316134392c3078316134392c3078316134392c3078316134392c3078316134392c3078316134392c3078316134392c3078316134392c3078316134392c3078316134392c3078316134392c3078316134392c,
  0x202020203078316134392c3078316134392c3078316134392c3078316134392c3078316134392c3078316134392c3078316134392c3078316134392c3078316137302c3078316137302c3078316137302c3078316137302c3078316137302c3078316137302c3078316137302c3078316137302c,
  0x202020203078316137302c3078316137302c3078316137302c3078316137302c3078316137302c3078316137302c3078316137302c3078316137302c3078316137302c3078316137302c3078316137302c3078316137302c3078316137302c3078316137302c3078316137302c3078316137302c,
  0x202020203078316137302c3078316137302c3078316137302c3078316137302c3078316137302c3078316137302c3078316137302c3078316137302c3078316137392c3078316137392c3078316137392c3078316137392c3078316137392c3078316137392c3078316137392c3078316137392c,
  0x202020203078316137392c3078316137392c3078316137392c3078316137392c3078316137392c3078316137392c3078316137392c3078316137392c3078316161662c3078316161662c3078316137392c3078316161662c3078316137392c3078316137392c3078316137392c3078316137392c,
  0x202020203078316137392c3078316137392c3078316137392c3078316137392c3078316137392c3078316137662c3078316137662c3078316137662c3078316138622c3078316138622c3078316138622c3078316138622c3078316138622c3078316138622c3078316138622c3078316138622c,
  0x202020203078316138622c3078316138622c3078316138622c3078316138622c3078316138622c3078316138622c3078316138622c3078316138622c3078316138622c3078316138622c3078316138622c3078316138622c3078316138622c3078316138622c3078316138622c3078316138622c,
  0x202020203078316138622c3078316138622c3078316138622c3078316138622c3078316138622c3078316138622c3078316138622c3078316138622c3078316231652c3078316231652c3078316231652c3078316231652c3078316231652c3078316231652c3078316231652c3078316231652c,
  0x202020203078316231652c3078316231652c3078316231652c3078316231652c3078316231652c3078316231652c3078316231652c3078316231652c3078316231652c3078316231652c3078316231652c3078316231652c3078316231652c3078316231652c3078316231652c3078316231652c,
  0x202020203078316231652c3078316231652c3078316231652c3078316231652c3078316231652c3078316231652c3078316231652c3078316231652c3078316232612c3078316232612c3078316232612c3078316232612c3078316232612c3078316232612c3078316232612c3078316232612c,
  0x202020203078316232612c3078316232612c3078316232612c3078316232612c3078316232612c3078316232612c3078316232612c3078316232612c3078316232612c3078316232612c3078316232612c3078316232612c3078316232612c3078316232612c3078316232612c3078316232612c,
  0x202020203078316232612c3078316232612c3078316232612c3078316232612c3078316232612c3078316232612c3078316232612c3078316232612c3078316234652c3078316234652c3078316234652c3078316234652c3078316234652c3078316234652c3078316234652c3078316234652c,
  0x202020203078316234652c3078316234652c3078316234652c3078316234652c3078316234652c3078316234652c3078316234652c3078316234652c3078316234652c3078316234652c3078316234652c3078316234652c3078316234652c3078316234652c3078316234652c3078316234652c,
  0x202020203078316234652c3078316234652c3078316234652c3078316234652c3078316234652c3078316234652c3078316234652c3078316234652c3078316235312c3078316235312c3078316235312c3078316235312c3078316235312c3078316235312c3078316235312c3078316235312c,
  0x202020203078316235312c3078316235312c3078316235312c3078316235312c3078316235312c3078316235312c3078316235312c3078316235312c3078316235312c3078316235312c3078316235312c3078316235312c3078316235312c3078316235312c3078316235312c3078316235312c,
  0x202020203078316235312c3078316235312c3078316235312c3078316235312c3078316235312c3078316235312c3078316235312c3078316235312c302c302c302c30]

/-- UnicodeData/CharPropsData.py:3362-3370 the lines. -/
def charText16 : List Nat :=
 [0x5d,
  0x0,
  0x70726f7073566563746f7273547269655f696e6465785f6c656e677468203d2035303234,
  0x70726f7073566563746f7273547269655f696e6465785f325f6e756c6c5f6f6666736574203d203078613430,
  0x70726f7073566563746f7273547269655f646174615f6e756c6c5f6f6666736574203d20307831343230,
  0x70726f7073566563746f7273547269655f686967685f7374617274203d203078313130303030,
  0x70726f7073566563746f7273547269655f686967685f76616c75655f696e646578203d20307837396638,
  0x0,
  0x70726f7073566563746f7273203d205b]

/-- UnicodeData/CharPropsData.py:3371-3626 the lines. -/
def charText17 : List Nat :=
 [0x20202020307836372c302c302c307836372c302c3078346530303030302c307836372c307838303030302c307832302c30783836372c302c302c30786136372c302c302c30786236372c,
  0x20202020302c302c30786336372c302c302c30786436372c302c302c30786536372c302c302c3078313036372c302c302c3078313136372c302c,
  0x20202020302c3078313236372c302c302c3078313336372c302c302c3078313436372c302c302c3078313536372c302c302c3078313636372c302c302c,
  0x202020203078313736372c302c302c3078313836372c302c302c3078313936372c302c302c3078316136372c302c302c3078316236372c302c302c3078316436372c,
  0x20202020302c302c3078316636372c302c302c3078323036372c302c302c3078323236372c302c302c3078323336372c302c302c3078323436372c302c,
  0x20202020302c3078323536372c302c302c3078323736372c302c302c3078323836372c307838303030302c307832302c3078323936372c302c302c3078326136372c302c3078313630303030302c,
  0x202020203078326236372c302c302c3078326436372c302c302c3078333136372c307832303030303030302c302c3078333236372c307832303030303030302c302c3078336136372c302c302c3078336236372c,
  0x20202020302c302c3078336336372c302c302c3078336536372c302c302c3078343036372c302c302c3078343136372c302c302c3078343436372c302c,
  0x20202020302c3078343836372c302c302c3078343936372c302c302c3078346136372c302c302c3078353036372c302c302c3078353136372c302c302c,
  0x202020203078353436372c302c302c3078353536372c302c302c3078353636372c307838303030302c307832302c3078353736372c302c302c3078353836372c302c302c3078353936372c,
  0x20202020302c302c3078356236372c302c302c3078356336372c302c302c3078356436372c302c302c3078363036372c307838303030302c307832302c3078363236372c302c,
  0x20202020302c3078363336372c302c302c3078363436372c302c302c3078363536372c302c302c3078366636372c302c302c3078373036372c302c302c,
  0x202020203078373336372c307832303030303030302c302c3078373536372c302c302c3078373636372c302c302c3078373736372c302c302c3078373836372c302c302c3078376136372c,
  0x20202020302c302c3078376236372c302c302c3078376336372c302c302c3078376536372c302c302c3078376636372c302c302c3078383136372c302c,
  0x20202020302c3078383236372c302c302c3078383336372c302c302c3078383436372c302c302c3078383536372c302c302c3078383636372c302c302c,
  0x202020203078383736372c302c302c3078383836372c302c302c3078383936372c302c302c3078386236372c302c302c3078386336372c302c302c3078386536372c,
  0x20202020307832303030303030302c302c3078386636372c302c302c3078393036372c302c302c3078393136372c302c302c3078393236372c302c302c3078393336372c302c,
  0x20202020302c3078393536372c302c302c3078393636372c302c302c3078393736372c302c302c3078393836372c302c302c3078393936372c302c302c,
  0x202020203078396136372c302c302c3078396336372c302c302c3078396636372c302c302c3078613136372c302c302c3078613336372c302c302c3078613436372c,
  0x20202020302c302c3078613536372c302c302c3078613636372c302c302c3078613736372c302c302c3078613836372c302c302c3078613936372c302c,
  0x20202020302c3078616136372c302c3078346530303030302c3078616236372c302c3078346530303030302c3078616336372c302c302c3078616436372c302c302c3078616536372c302c302c,
  0x202020203078616636372c302c302c3078623136372c302c302c3078623236372c302c302c3078623436372c302c302c3078623536372c302c302c3078623736372c,
  0x20202020302c302c3078623836372c302c302c3078623936372c302c302c3078626136372c302c302c3078626336372c302c302c3078626436372c302c,
  0x20202020302c3078626536372c302c302c3078626636372c302c302c3078633036372c302c302c3078633136372c302c302c3078633236372c302c302c,
  0x202020203078633336372c302c3078346530303030302c3078633436372c302c3078346530303030302c3078633636372c302c302c3078633736372c302c302c3078633836372c302c302c3078633936372c,
  0x20202020302c302c3078636136372c302c302c3078636336372c302c3078346530303030302c3078636636372c302c3078346530303030302c3078643036372c302c3078346530303030302c3078643236372c302c,
  0x20202020302c3078643336372c302c302c3078643436372c302c302c3078643536372c302c302c3078643636372c302c302c3078643836372c302c302c,
  0x202020203078646136372c302c302c3078646236372c302c302c3078646336372c302c302c3078646436372c302c302c3078646536372c302c302c3078646636372c,
  0x20202020302c302c3078653036372c302c302c3078653136372c302c302c3078653236372c302c302c3078653336372c302c3078346530303030302c3078653436372c302c,
  0x20202020302c3078653536372c302c302c3078653636372c302c302c3078653736372c302c302c3078653836372c302c302c3078653936372c302c302c,
  0x202020203078656136372c302c302c3078656236372c302c302c3078656336372c302c302c3078656436372c302c302c3078656536372c302c302c3078656636372c,
  0x20202020302c302c3078663136372c302c302c3078663336372c302c302c3078663536372c302c302c3078663636372c302c302c3078663736372c302c,
  0x20202020302c3078663836372c302c302c3078663936372c302c302c3078666136372c302c3078346530303030302c3078666236372c302c302c3078666336372c302c302c,
  0x202020203078666436372c302c302c3078666536372c302c302c307831303136372c302c302c307831303236372c302c302c307831303336372c302c302c307831303436372c,
  0x20202020302c302c307831303536372c302c3078346530303030302c307831303636372c302c302c307831303736372c302c302c307831303836372c302c302c307831303936372c302c,
  0x20202020302c307831306136372c302c302c307831306236372c302c302c307831306336372c302c302c307831306436372c302c302c307831306536372c302c302c,
  0x20202020307831306636372c302c302c307831313036372c302c302c307831313336372c302c302c307831313436372c302c302c307831313536372c302c302c307831313636372c,
  0x20202020302c302c307831313736372c302c302c307831313836372c302c302c307831313936372c302c3078346530303030302c307831316136372c302c302c307831316236372c302c,
  0x20202020302c307831316336372c302c302c307831316436372c302c302c307831316536372c302c302c307831316636372c302c302c307831323036372c302c302c,
  0x20202020307831323136372c302c302c307831323236372c302c302c307831323336372c302c302c307831323436372c302c302c307831323536372c302c302c307831323636372c,
  0x20202020302c302c307831323736372c302c302c307831323836372c302c302c307831323936372c302c302c307831326136372c302c3078346530303030302c307831326236372c302c,
  0x20202020302c307831326336372c302c302c307831326436372c302c302c307831326636372c302c302c307831333036372c302c302c307831333136372c302c302c,
  0x20202020307831333236372c302c302c307831333336372c302c302c307831333436372c302c302c307861303036372c302c30786530303030302c307861343736372c302c30786530303030302c307861346636372c,
  0x20202020302c30786530303030302c307861356536372c302c30786530303030302c307861356636372c302c30786530303030302c307861633536372c302c30786530303030302c307861643136372c302c30786530303030302c307862303036372c302c,
  0x2020202030786530303030302c307862313236372c302c30786530303030302c307862326536372c302c30786530303030302c307831313030303130302c302c30783930303032302c307831313030303130302c307834303030303030312c30783434303032302c307831313030303130302c307834303030303030312c30783634333032302c,
  0x20202020307831313030303130302c307834303030303030312c30786135613034302c307831313030303130302c307834303030303030312c3078313136613861302c307831313030303230302c302c30783930303032302c307831313030303230302c3078343030303030312c30786334303030622c307831313030303230302c3078376330303130302c30783232303430322c307831313030303230302c,
  0x20202020307832343030303030302c307831343230303030302c307831313030303230302c307832343030303030382c3078313731303030302c307831313030303230302c307834303030303030312c3078316433623032302c307831313030303231392c3078376330303130302c30783232303430312c307831313030303231392c3078376330303130302c30783235303430312c307831313030303331392c3078376330303130302c,
  0x2020202030783232303430312c307831313030303331392c3078376330303130302c30783232303430322c307831313030303331392c3078376330303130302c30783235303430302c307831313030303331392c3078376330303130302c30783235303430312c307831313030303431392c3078376330303130302c30783232303430302c307831313030303431392c3078376330303130302c30783232303430312c,
  0x20202020307831313030303431392c3078376330303130302c30783232303430322c307831313030303431392c3078376330303130302c30783233303430302c307831313030303431392c3078376330303130302c30783235303430302c307831313030303431392c3078376330303130302c30783235303430312c307831313030303431392c3078376330303130302c30783235303430322c307831313030303531392c,
  0x202020203078376330303130302c30783232303430302c307831313030303531392c3078376330303130302c30783233303430302c307831313030303630302c3078343030303430302c30783230303030322c307831313030303630302c3078343030303430302c30783230303430302c307831313030303630302c3078376330303530302c30783232303430302c307831313030303630302c3078376330303530302c,
  0x2020202030783233303430302c307831313030303630302c3078376330303530302c30783533303430302c307831313030303630302c3078376330306430302c30783233303430302c307831313030303631392c3078376330303530302c30783232303430662c307831313030303830302c3078343030303031302c3078313030313430312c307831313030303830302c3078343030303430302c30783230303030312c,
  0x20202020307831313030303830302c3078363830303031302c30783230313030312c307831313030303830302c3078376330303530302c30783233303430312c307831313030303830372c3078376330303130302c30783232303430302c307831313030303830372c3078376330303130302c30783235303430302c307831313030303830652c3078343030303430302c30783230303030302c307831313030303830652c,
  0x202020203078343030303430302c30783230303030322c307831313030303830652c3078373030303530302c30783232303430322c307831313030303830652c3078376330303130302c30783232303430302c307831313030303830652c3078376330303130302c30783232303430312c307831313030303830652c3078376330303130302c30783232303430322c307831313030303830652c3078376330303130302c,
  0x2020202030783235303430302c307831313030303830652c3078376330303130302c30783235303430312c307831313030303830652c3078376330303132302c30783232303430322c307831313030303830652c3078376330303132302c30783235303430322c307831313030303930382c3078343030303030302c30783230303030302c307831313030303930382c3078376330303130302c30783232303430302c,
  0x20202020307831313030303930382c3078376330303130302c30783232303430312c307831313030303930382c3078376330303130302c30783235303430302c307831313030303930382c3078376330303130302c30783235303430312c307831313030306130332c3078343030303030302c30783230303430302c307831313030306130332c3078343030303030302c30783230313030302c307831313030306130332c,
  0x202020203078343030303030302c30783237303030302c307831313030306130332c3078376330303130302c30783232303430302c307831313030306130332c3078376330303130302c30783232303430322c307831313030306130332c3078376330303130302c30783235303430302c307831313030306130332c3078376330303530302c30783233303430302c307831313030306130332c3078633030303031302c,
  0x202020203078313034393430302c307831313030306231332c3078323830323530302c30783936323436302c307831313030306231332c3078343030303030302c30783230303030302c307831313030306231332c3078343030303030302c30783230313030302c307831313030306231332c3078343030303030302c30783233303430302c307831313030306231332c3078343030303030322c30783430303030302c,
  0x20202020307831313030306231332c3078343030303031302c30783230303030302c307831313030306231332c3078376330303130302c3078323633333830302c307831313030306330302c307838303030303030302c30783231383936302c307831313030306330322c3078323830323130302c30783936323436302c307831313030306330322c3078323830323430302c30783936323436302c307831313030306330322c,
  0x202020203078343030303030302c30783230303030302c307831313030306330322c3078343030303030302c3078313332393430302c307831313030306330322c3078343030303030302c3078313332393830302c307831313030306330322c3078343030303030302c3078313530303030302c307831313030306330322c3078363830303030302c3078313332393830302c307831313030306330322c3078376330303130302c,
  0x2020202030783233303430302c307831313030306330322c3078376330303130302c30783233303430312c307831313030306330322c3078376330303130302c30783233303430322c307831313030306330322c3078376330303530302c30783233303430302c307831313030306330322c3078376430303130302c30783233303430302c307831313030306630312c3078323830323430302c30783936323436302c,
  0x20202020307831313030306630612c3078323830323130302c30783936323436302c307831313030306630612c3078323830323430302c30783936323436302c307831313030306630612c3078323830363430302c30783936323436302c307831313030306630612c3078343030303030302c30783230303030302c307831313030306630612c3078363830303130302c30783936323534302c307831313030306630612c,
  0x202020203078376330303130302c30783233303430302c307831313030306630612c3078376330303130302c30783233303430312c307831313030313030342c3078323830323130302c30783936323436302c307831313030313030342c3078323830323430302c30783936323436302c307831313030313030342c3078323830363430302c30783936323436302c307831313030313030342c3078343030303030302c,
  0x2020202030783230303030302c307831313030313030342c3078343030303030302c3078313530303030302c307831313030313030342c3078363830303130302c30783936323534302c307831313030313030342c3078363830303130302c30783936323534312c307831313030313030342c3078376330303130302c30783233303430302c307831313030313030342c3078376330303130302c30783233303430312c,
  0x20202020307831313030313131302c3078323830323130302c30783936323436302c307831313030313131302c3078323830323430302c30783936323436302c307831313030313131302c3078323830363430302c30783936323436302c307831313030313131302c3078363830303130302c30783936323534302c307831313030313131302c3078376330303130302c30783233303430302c307831313030313131302c,
  0x202020203078376330303130302c30783233303430312c307831313030313230662c3078323830323130302c30783936323436302c307831313030313230662c3078323830323430302c30783936323436302c307831313030313230662c3078323830363430302c30783936323436302c307831313030313230662c3078363830303130302c30783936323534302c307831313030313230662c3078376330303130302c,
  0x2020202030783233303430302c307831313030313331662c3078323830323130302c30783936323436302c307831313030313331662c3078323830323430302c30783936323436302c307831313030313331662c3078323830363430302c30783936323436302c307831313030313331662c3078343030303030302c30783230303030302c307831313030313331662c3078363830303030302c3078313332393830302c,
  0x20202020307831313030313331662c3078363830303130302c30783936323534302c307831313030313331662c3078363830303130302c30783936323534312c307831313030313331662c3078376330303130302c30783233303430302c307831313030313331662c3078376330303130302c30783233303430312c307831313030313432332c3078323830323130302c30783936323436302c307831313030313432332c,
  0x202020203078323830363430302c30783936323436302c307831313030313432332c3078363830303130302c30783936323534302c307831313030313432332c3078363830303130302c30783936323534312c307831313030313432332c3078376330303130302c30783233303430302c307831313030313432332c3078376330303130302c30783233303430312c307831313030313532342c3078323830323130302c,
  0x2020202030783936323436302c307831313030313532342c3078323830323130302c30783936323436312c307831313030313532342c3078323830363430302c30783936323436302c307831313030313532342c3078363830303030302c3078313332393830302c307831313030313532342c3078363830303130302c30783936323534302c307831313030313532342c3078376330303130302c30783233303430302c,
  0x20202020307831313030313631352c3078323830323130302c30783936323436302c307831313030313631352c3078323830363430302c30783936323436302c307831313030313631352c3078363830303130302c30783936323534302c307831313030313631352c3078363830303130302c30783936323534312c307831313030313631352c3078376330303130302c30783233303430302c307831313030313731612c,
  0x202020203078323830323130302c30783936323436302c307831313030313731612c3078323830363430302c30783936323436302c307831313030313731612c3078363830303030302c3078313332393830302c307831313030313731612c3078363830303130302c30783936323534302c307831313030313731612c3078363830303130302c30783936323534312c307831313030313731612c3078376330303130302c,
  0x2020202030783233303430302c307831313030313930302c3078343030303030302c3078313630303030302c307831313030313932362c3078323830323130302c3078313836323436302c307831313030313932362c3078323830323430302c3078313836323436302c307831313030313932362c3078323830363130302c3078313836323436302c307831313030313932362c3078343030303030302c30783230303030302c,
  0x20202020307831313030313932362c3078343030303031302c30783430303030302c307831313030313932362c3078363830303030302c3078313332393830302c307831313030313932362c3078373830303130302c3078313833303134322c307831313030313932362c3078376330303130302c3078313833303030302c307831313030313932362c3078376330303930302c3078313833303030302c307831313030313932362c,
  0x202020203078376530303130302c3078313833303030302c307831313030316131382c3078323830323130302c3078313836323436302c307831313030316131382c3078323830323430302c3078313836323436302c307831313030316131382c3078363830303030302c3078313332393830302c307831313030316131382c3078373830303130302c3078313833303134322c307831313030316131382c3078376330303130302c,
  0x202020203078313833303030302c307831313030316131382c3078376330303130302c3078313833303030322c307831313030316131382c3078376330303930302c3078313833303030302c307831313030316131382c3078376530303130302c3078313833303030302c307831313030316430632c3078376330303130302c30783233303430302c307831313030316430632c3078376330303130302c30783235303430302c,
  0x20202020307831313030316531322c3078376330303130302c3078323233303530302c307831313030316531322c3078376330303130302c3078323333303532302c307831313030316531322c3078376338303130302c3078323333303532302c307831313030323631392c3078376330303130302c30783232303430312c307831313030323631392c3078376330303130302c30783232303430322c307831313030323631392c,
  0x202020203078376330303130302c30783235303430312c307831313030323730652c3078343030303430302c30783230303030312c307831313030323730652c3078343030303430302c30783230303030322c307831313030323730652c3078343030303430302c30783530303030312c307831313030323730652c3078376330303130302c30783232303430312c307831313030323730652c3078376330303130302c,
  0x2020202030783235303430312c307831313030323830302c307838303030302c30783931383832302c307831313030323830302c307838303030302c3078316331383032302c307831313030323830302c30783138303030302c30783931383832302c307831313030323830302c3078343030303030312c30783434353830312c307831313030323830302c3078343030303030312c30783434353830322c,
  0x20202020307831313030323830302c3078343030303030312c30786334303030622c307831313030323830302c3078363830303030302c30783230316330302c307831313030323830302c3078363830303032302c30783230316330302c307831313030323830302c307832343030303030302c30783230303030302c307831313030323830302c307832343030303030302c30783230303030322c307831313030323830302c,
  0x20202020307832343030303030302c30783831303030302c307831313030323830302c307832343030303030302c3078313431303030302c307831313030323830302c307832343030303030302c3078313530303030302c307831313030323830302c307832343030303030302c3078313530303030322c307831313030323830302c307832343030303030322c30783430303030302c307831313030323830302c307832343030303030362c,
  0x2020202030786330303030622c307831313030323830302c307832343030303030382c3078313431303030302c307831313030323830302c307832343030303030382c3078313731303030302c307831313030323830302c307832343030303032302c3078313030313430302c307831313030323830302c307832343030303032302c3078313530303030322c307831313030323830302c307832633030303031302c3078313234383030302c,
  0x20202020307831313030323830302c307832633030303031302c307831353234383030322c307831313030323830302c307834303030303030312c30783633623032302c307831313030323830302c307834303038303030302c30783931383832302c307831313030323830312c307838303030302c3078616136353632302c307831313030323830312c307838323030302c30783936323436302c307831313030323930302c,
  0x202020203078343030303030302c30783230303030652c307831313030323930302c3078343030303030302c30783230303030662c307831313030323930302c3078343030303032302c30783230303030652c307831313030323930302c3078343030303032302c30783230303030662c307831313030323930302c3078343030303032302c30783831303030652c307831313030323930302c3078343030303032302c,
  0x2020202030783831303030662c307831313030323930302c3078343030303032302c3078313431303030652c307831313030323930302c3078343030303032302c3078313431303030662c307831313030323930302c3078343030303032322c30783230303030652c307831313030323930302c3078343030303032322c30783230303030662c307831313030326130302c3078343030303030302c3078313530303030302c,
  0x20202020307831313030326130302c3078343030303030302c3078313630303030302c307831313030326130302c3078343030303030302c3078313630303030322c307831313030326230312c3078323030302c30783936323436302c307831313030326230312c3078323830323032302c30783936323436302c307831313030326330302c3078343030303030302c30783230303030302c307831313030326330302c,
  0x202020203078343030303030302c30783230303030322c307831313030326330302c3078343030303030302c30783230303030662c307831313030326330302c3078343030303032302c30783230303030302c307831313030326330302c3078376330303030302c30783230303030302c307831313030326330302c3078376330303032302c30783230303030302c307831313030326330302c3078376330303132302c,
  0x2020202030783232303430352c307831313030326330302c3078376330303132302c30783233303430322c307831313030326330302c3078376330303132302c30783235303430322c307831313030326330302c3078376330303132302c30783235303430352c307831313030326331392c3078376330303130302c30783235303430302c307831313030326331392c3078376330303130302c30783235303430312c,
  0x20202020307831313030326430302c3078343030303030302c30783130303030362c307831313030326430302c3078343030303030302c30783230303030362c307831313030326431392c3078376330303130302c30783232303430322c307831313030326431392c3078376330303130302c30783233303430302c307831313030326431392c3078376330303130302c30783235303430322c307831313030326530302c,
  0x20202020307832343030303030302c30783230303030302c307831313030326530302c307832343030303032302c30783230303030302c307831313030326530302c307832343030303032302c30783230303030312c307831313030326530302c307832343030303032302c307831343230303030302c307831313030326630302c307832343030303032302c30783230303030302c307831313030326630302c307832343030303032302c,
  0x2020202030783230303030312c307831313030326630302c307832343030303032302c30783230303030322c307831313030326630302c307832343030303032302c30786630303030302c307831313030326630302c307832343030303032302c3078313630303030302c307831313030326630302c307832343030303032322c3078313630303030302c307831313030333030302c307832343030303030302c30783230303030302c,
  0x20202020307831313030333030302c307832343030303030302c307831343230303030302c307831313030333030302c307832343030303032302c30783230303030302c307831313030333030302c307832343030303032302c30783831303030302c307831313030333030302c307832343030303032302c3078313431303030302c307831313030333130302c307832343030303030302c30783230303030302c307831313030333230302c,
  0x20202020307832343030303030302c30783230303030302c307831313030333330302c3078343030303030302c30783130303030332c307831313030333430302c307832343030303030302c30783130303030302c307831313030333430302c307832343030303030302c30783230303030302c307831313030333530302c307832343030303030302c30783230303030302c307831313030333630302c307832343030303030302c,
  0x2020202030783230303030302c307831313030333630302c307832343030303030302c307831343230303030302c307831313030333630302c307832343030303032302c30783230303030302c307831313030333730302c307832343030303030302c30783230303030302c307831313030333730302c307832343030303030302c3078343230303030302c307831313030333730302c307832343030303030302c3078346530303030302c,
  0x20202020307831313030333730302c307832343030303030302c307831343230303030302c307831313030333730302c307832343030303030302c307831346530303030302c307831313030333730302c307832343030303030302c307839363830303030302c307831313030333730302c307832343030303032302c3078343230303030302c307831313030333830302c3078343030303030302c30783130303030302c307831313030333830302c,
  0x20202020307832343030303030302c30783230303030302c307831313030333830302c307832343030303030302c30786230303030302c307831313030333830302c307832343030303030302c3078313731303030302c307831313030333830302c307832343030303030302c3078343230303030302c307831313030333830302c307832343030303030302c3078346530303030302c307831313030333830302c307832343030303030302c,
  0x20202020307831343230303030302c307831313030333830302c307832343030303030302c307831346230303030302c307831313030333830302c307832343030303030302c307831346530303030302c307831313030333830302c307832343030303030302c307839363830303030302c307831313030353030332c3078376330303130302c30783232303430322c307831313030353031332c3078323830323530302c30783936323436302c,
  0x20202020307831313030353031332c3078343030303032302c30783230303030352c307831313030353031332c3078376330303130302c3078323633333830312c307831313030353031332c3078376330303130302c3078323633333830322c307831313030353031332c3078376330303130302c3078323633333830352c307831313030353031392c3078376330303130302c30783232303430322c307831313030353130302c,
  0x20202020307832343030303030302c30783831303030302c307831313030353130302c307832343030303030302c3078313431303030302c307831313030353130322c3078373030303130302c30783233303430382c307831313030353130322c3078376330303130302c30783233303430342c307831313030353130322c3078376330303130302c30783233303430372c307831313030353130322c3078376330303130302c,
  0x2020202030783233303430382c307831313030353130322c3078376330303130302c30783233303430392c307831313030353230312c3078323830323430302c30783936323436302c307831313030353530302c307838303030302c3078316531383832302c307831313030353530322c3078373030303130302c30783233303430382c307831313030353530322c3078376330303130302c30783233303430342c,
  0x20202020307831313030353530322c3078376330303130302c30783233303430372c307831313030353530322c3078376330303130302c30783233303430382c307831313030353530322c3078376330303130302c30783233303430392c307831313030353636372c3078313030302c302c307831313032303230302c307838303030342c30783431383832302c307831313032303230302c,
  0x202020203078343030303030302c30783130303030362c307831313032303230302c3078343030303030302c30783130303030662c307831313032303230302c3078343030303430302c30783130303030322c307831313032303230302c3078343030303430302c30783530303030322c307831313032303230302c3078363830306330302c30783130313030302c307831313032303230302c307832343030303030302c,
  0x2020202030783130303030302c307831313032303230302c307832343030303030302c3078313430303030302c307831313032303230302c307832343030303030302c3078313530303030302c307831313032303230302c307832343030303030302c3078313630303030302c307831313032303230302c307832343030303030302c307831343230303030302c307831313032303230302c307832343030303032302c30783130303030302c,
  0x20202020307831313032303230302c307832343030303032302c3078313630303030302c307831313032303231392c3078376330303130302c30783132303430662c307831313032303231392c3078376330303130302c30783232303430302c307831313032303231392c3078376330303130302c30783232303430312c307831313032303231392c3078376330303130302c30783235303430302c307831313032303331392c,
  0x202020203078376330303130302c30783232303430302c307831313032303331392c3078376330303130302c30783232303430312c307831313032303331392c3078376330303130302c30783232303430322c307831313032303331392c3078376330303130302c30783235303430302c307831313032303331392c3078376330303130302c30783235303430322c307831313032303331392c3078376430303130302c,
  0x2020202030783232303430322c307831313032303431392c3078376330303130302c30783232303430312c307831313032303531392c3078376330303130302c30783232303430302c307831313032303630302c3078343030303430302c30783130303030322c307831313032303630302c3078343030303430302c30783230303430302c307831313032303630302c3078376330303530302c30783133303430302c,
  0x20202020307831313032303630302c3078376330306430302c30783133303430302c307831313032303730312c3078323830323430302c30783936323436302c307831313032303730312c3078323830323430302c30783936323436312c307831313032303730312c3078323830323430302c30786336323436302c307831313032303830652c3078376330303130302c30783232303430302c307831313032303830652c,
  0x202020203078376330303130302c30783235303430302c307831313032303930382c3078376330303130302c30783232303430302c307831313032303930382c3078376330303130302c30783232303430312c307831313032303930382c3078376330303130302c30783235303430302c307831313032303930382c3078376330303130302c30783235303430312c307831313032323830302c307832343030303030302c,
  0x2020202030783130303030302c307831313032323830302c307832343030303030302c30783230303030302c307831313032323830302c307832343030303030302c30783230303030322c307831313032323830302c307832343030303030302c30783430313030302c307831313032323830302c307832343030303030302c30786630303030322c307831313032323830302c307832343030303030302c30786630616330322c,
  0x20202020307831313032323830302c307832343030303030302c3078313530303030302c307831313032323830302c307832343030303030322c30783130303030302c307831313032323830302c307832343030303030322c30783337303030302c307831313032323830302c307832343030303030322c30783437303030302c307831313032323830302c307832343030303030362c30783430303030302c307831313032323830302c,
  0x20202020307832343030303030382c3078313731303030302c307831313032323830302c307832343030303030382c3078313731326330302c307831313032323830302c307832343030303032302c30783130303030302c307831313032323830302c307832343030303032302c3078313530303030302c307831313032323830302c307832343030303032302c3078313530303030322c307831313032323930302c3078343030303030302c,
  0x2020202030783130303030652c307831313032323930302c3078343030303030302c30783130303030662c307831313032323931392c3078376330303130302c30783132303430662c307831313032326330302c3078343030303030302c30783130303030322c307831313032326330302c3078343030303030302c3078313530303030322c307831313032326330302c3078343030303030302c3078313630303030322c,
  0x20202020307831313032326330302c3078343030303030302c307831343130303030662c307831313032326330302c3078376330303132302c30783132303430352c307831313032326330652c3078376330303130302c30783235303430312c307831313032326331392c3078376330303130302c30783135303430312c307831313032326430302c3078343030303030302c30783130303030362c307831313032326430302c,
  0x202020203078343030303030302c30783230303030362c307831313032326431392c3078376330303130302c30783132303430322c307831313032326431392c3078376330303130302c30783135303430322c307831313032326530302c307832343030303030302c30783230303030302c307831313032326530302c307832343030303032302c30783130303030302c307831313032326530302c307832343030303032302c,
  0x20202020307831343130303030302c307831313032326630302c307832343030303032302c30783130303030302c307831313032326630302c307832343030303032302c30783130303030312c307831313032326630302c307832343030303032302c30783130303030322c307831313032333030302c307832343030303030302c30783130303030302c307831313032333330302c3078343030303030302c30783130303030322c,
  0x20202020307831313032333330302c3078343030303030302c30783130303030332c307831313032333330302c3078343030303130302c30783132303430332c307831313032333330302c3078343030303130302c30783135303430332c307831313032333330302c3078343030303130302c307831343135303430332c307831313032333430302c307832343030303030302c30783130303030302c307831313032333530302c,
  0x20202020307832343030303030302c30783130303030302c307831313032333630302c307832343030303030302c30783130303030302c307831313032333630302c307832343030303032302c30783130303030302c307831313032333630302c307832343030303032302c307831343130303030302c307831313032333730302c307832343030303030302c3078343130303030302c307831313032333730302c307832343030303030302c,
  0x202020203078346530303030302c307831313032333730302c307832343030303030302c307831343130303030302c307831313032333730302c307832343030303030302c307831346530303030302c307831313032333730302c307832343030303032302c30783130303030302c307831313032333730302c307832343030303032302c3078343130303030302c307831313032333730302c307832343030303032302c307831343130303030302c,
  0x20202020307831313032333830302c3078343030303030302c30783130303030302c307831313032333830302c307832343030303030302c30783230303030302c307831313032346536372c302c302c307831313032353630302c3078343030303030302c30783130303030302c307831313034326130302c3078343030303030302c3078313630303030302c307831313034353730302c,
  0x202020203078343030303030302c30783230303030612c307831313034353730302c3078343030303032302c30783230303030612c307831313034353731322c3078376330303130302c30786533303430612c307831313034353731322c3078376338303130302c30786533303430612c307831313034353731362c3078376330303130302c30786533306330612c307831313034353731362c3078376330303130302c,
  0x202020203078323533306330612c307831313036336430302c3078343030303030312c30783434353831312c307831313036353730302c3078343030303030302c30783831303031312c307831313036353730302c3078343030303030302c30786530303031312c307831313036353730302c3078343030303030302c3078313431303031312c307831313036353730302c3078343030303030302c3078313530303031312c,
  0x20202020307831313036353730302c3078343030303030302c3078313630303031312c307831313036353730302c3078343030303030362c30786537303031312c307831313036353730302c3078343030303030382c30786530303031312c307831313036353730302c3078343030303030382c30786530326331312c307831313036353730302c3078343030303031302c30783837313431312c307831313036353730302c,
  0x202020203078343030303031302c3078313230313431312c307831313036353730302c3078343030303031302c3078313237313031312c307831313036353730302c3078343030303032302c30786530303031312c307831313036353730302c3078343030303430302c30786530303031312c307831313036353730302c3078343030303432302c30786530303031312c307831313036353730302c3078363830303030302c,
  0x2020202030786530316331312c307831313036353730302c3078363830303034302c30786532393831312c307831313036353730302c3078633030303031302c30783830616331312c307831313036353730302c3078633030303031302c30786234383031312c307831313036353731392c3078376330303130302c30786532303431312c307831313036353731392c3078376330303130302c30786535303431312c,
  0x20202020307831313036353731392c3078376330303134302c30786532303431312c307831313036353731392c3078376330303134302c30786535303431312c307831313038303130302c3078363830303030302c30783230316330302c307831313038303130302c3078363830303063302c307831393332393830302c307831313038303130302c307832343030303030302c30783230303030302c307831313038303130302c,
  0x20202020307832343030303030302c30783831303030302c307831313038303130302c307832343030303030302c3078313431303030302c307831313038303130302c307832343030303030302c3078313530303030302c307831313038303130302c307832343030303030302c3078313630303030302c307831313038303130302c307832343030303030302c3078316230303030302c307831313038303130302c307832343030303030302c,
  0x202020203078323431303030302c307831313038303130302c307832343030303030302c307831383230303030302c307831313038303130302c307832343030303030362c30786437303030302c307831313038303130302c307832343030303030382c3078313731336330302c307831313038303130302c307832343030303030382c3078313731343030302c307831313038303130302c307832343030303031302c3078313030313430302c,
  0x20202020307831313038303130302c307832343030303031302c3078313037313030302c307831313038303130302c307832343030303031302c3078313037313430302c307831313038303130302c307832343030303032302c30783230303030302c307831313038303130302c307832343030303032302c30783430303030302c307831313038303130302c307832343030303032302c3078313630303030302c307831313038303130302c,
  0x20202020307832343030303430302c30783230303030302c307831313038303130302c307832343030303432302c30783230303030302c307831313038303130302c307832633030303031302c30786234383030302c307831313038303130302c307832633030303031302c3078313030616330302c307831313038303130302c307834343030303030312c3078316134353830302c307831313038303131392c3078376330303130302c,
  0x2020202030783232303430302c307831313038303131392c3078376330303130302c30783235303430302c307831313038303131392c3078376330303163302c30783232303430302c307831313038303131392c3078376330303163302c30783235303430302c307831313038303230302c3078343030303430302c30783230303030322c307831313038303230302c307832343030303030302c30783230303030302c,
  0x20202020307831313038303230302c307832343030303030302c3078313530303030302c307831313038303230302c307832343030303030302c3078313630303030302c307831313038303230302c307832343030303032302c30783230303030302c307831313061316531322c3078376330303130302c3078323133303438302c307831313061316531322c3078376338303130302c3078323133303438302c307831313061333030302c,
  0x20202020307832343030303030302c307833346530303030302c307831313061333030302c307832343130303030302c30783831303030312c307831313061333030302c307832343130303030302c3078313431303030312c307831313061333730302c307832343030303030302c307833343230303030302c307831313061336430302c3078343030303030302c30786530303030302c307831313061336430302c3078343030303030302c,
  0x2020202030786530303030322c307831313061336430302c307832343030303030302c30786530303030302c307831313061336431312c3078376330303330302c30786533303030302c307831313061336431312c3078376330303930302c3078313233303430302c307831313061336431322c3078323830323430302c30783936323436302c307831313061336531342c3078376330303130302c30786533303030302c,
  0x20202020307831313061336531342c3078376330303130302c30786533303030312c307831313061336531342c3078376330303130302c3078323533303030302c307831313061336531342c3078376330303930302c3078313233303030302c307831313061336531342c3078376330303930302c3078313233303030312c307831313061336631362c3078376330303130302c30786533306330302c307831313061336631362c,
  0x202020203078376330303130302c30786533306330312c307831313061336631362c3078376330303130302c3078323533306330302c307831313061336631362c3078376330303930302c3078313233306330302c307831313061336631362c3078376330303930302c3078313233306330312c307831313061343030352c3078376330303130302c30786533303430302c307831313061343131322c3078376330303130302c,
  0x2020202030786533303430322c307831313061343131322c3078376338303130302c30786533303430322c307831313061343430302c3078343030303030302c30786530303030302c307831313061343431322c3078343030303030302c30786530303030322c307831313061343431322c3078343030303030302c30786530303030332c307831313061343431362c3078343030303030302c30786530306330332c,
  0x20202020307831313061343530302c3078343030303030302c30786530303030642c307831313061343531362c3078343030303030302c30786530306330642c307831313061343731312c3078376334303330302c30786533303030302c307831313061346631312c3078376330303330302c30786533303030312c307831313061346631312c3078376334303330302c30786533303030302c307831313061353330302c,
  0x202020203078343030303030302c30783831303031302c307831313061353330302c3078343030303030302c30786530303030322c307831313061353330302c3078343030303030302c30786530303031302c307831313061353330302c3078343030303030302c3078313431303031302c307831313061353330302c3078343030303030322c30786537303031302c307831313061353330302c3078343030303030382c,
  0x2020202030783831303031302c307831313061353330302c3078343030303030382c3078313431303031302c307831313061353330302c3078363830303030302c30786530316330322c307831313061353330302c3078363830303030302c30786530316331302c307831313061353430302c3078343030303030302c30783831303030632c307831313061353430302c3078343030303030302c30786530303030632c,
  0x20202020307831313061353430302c3078343030303030302c3078313431303030632c307831313061353430302c3078343030303030302c3078313530303030632c307831313061353430302c3078343030303030302c3078313630303030632c307831313061353430302c3078343030303030322c30786537303030632c307831313061353430302c3078343030303031302c30783837313430632c307831313061353430302c,
  0x202020203078343030303031302c30786537303030632c307831313061353430302c3078343030303031302c3078313230313430632c307831313061353430302c3078343030303031302c3078313237313030632c307831313061353430302c3078343030303032302c30786530303030632c307831313061353430302c3078343030303032362c30786537303030632c307831313061353430302c3078633030303031302c,
  0x2020202030783830616330632c307831313061353430302c3078633030303031302c30786234383030632c307831313430306330632c3078343030303031302c30786230303030302c307831313430306330632c3078343030303031302c3078313037313430302c307831313430306330632c3078633030303031302c30786234383030302c307831313430306331362c3078376330303930302c30783233303430302c,
  0x20202020307831313430306634302c3078633030303031302c30783434383030302c307831313430306635342c3078633030303031302c30783434383030302c307831313430316438392c3078343030303030302c30783230303030302c307831313430336462662c3078343030303030302c30786530303030302c307831313434353762342c3078343030303030342c3078313230303030612c307831313434353762342c,
  0x202020203078343030303030382c30783831303030612c307831313434353762342c3078343030303030382c3078313431303030612c307831313434353762342c3078343030303031302c30783837303030612c307831313434353762342c3078633030303031302c30783834383030612c307831313434353762642c3078333830323530302c3078313236323436612c307831313434353762642c3078376330306430302c,
  0x202020203078323533306330612c307831313461336462342c307832343030303030302c30783831303030302c307831313461336462342c307832343030303030302c3078313431303030302c307831313461336462342c307832343030303030382c30783831303030302c307831313461336462342c307832343030303030382c3078313431303030302c307831313461336462342c307832343030303031302c30783837303030302c,
  0x20202020307831313461336462342c307832633030303031302c30783834383030302c307831313461336462612c3078343030303030302c30786530303030302c307831313461336462612c307832343030303030302c30786530303030302c307831313461336462612c307832343030303030322c3078313230303030302c307831313461336462612c307832343030303030322c307831346530303030302c307831313461336462612c,
  0x20202020307832343030303030382c30783831303030302c307831313461336462612c307832343030303030382c3078313431303030302c307831313461336462642c3078376330303930302c30783933306330302c307831313461336462642c3078376330303930302c30786533306330302c307831313461336462662c3078376330303330302c30786533303030302c307831313461336562642c3078373030303430302c,
  0x202020203078313230306330322c307831313461336662342c3078343030303030342c3078313230303030302c307831313461336662642c3078376330306430302c3078323533306330302c307831313461343262662c3078343030303030302c30786530303030302c307831313461343262662c3078343030303030302c30786530303030662c307831313461343462662c3078343030303030302c30786530303030322c,
  0x20202020307831313461343462662c3078343030303030302c30786530303030332c307831313461343462662c3078343030303030302c307831346530303030332c307831313461343562662c3078343030303030302c30786530303030322c307831313461343562662c3078343030303030302c30786530303030642c307831313830303930612c3078323830323430302c30783936323436302c307831313830306331652c,
  0x202020203078323830323130302c30783936323436302c307831313830306331652c3078323830323530302c30783936323436302c307831313830306632372c3078323830323430302c30783936323436302c307831313830306633342c3078323830323430302c30783936323436302c307831313832303730302c3078323830323430302c30783936323436302c307831313832303730302c3078323830323530302c,
  0x2020202030783936323436302c307831313861336463302c3078323830323430302c30783936323436302c307831313861336562642c3078323830323430302c30783936323436302c307831316330303930342c3078323830323430302c30783936323436302c307831316330303930382c3078323830323430302c30783936323436302c307831316330306332302c3078633030303031302c30786234383030302c,
  0x20202020307831316330306332332c3078363830303030302c3078313332393830302c307831316330306636642c3078363830303030302c3078313332393830302c307831316330313037322c3078363830303030302c3078313332393830302c307831316330313137362c3078363830303030302c3078313332393830302c307831316330313237612c3078363830303030302c3078313332393830302c307831316330313437652c,
  0x202020203078343030303030302c30783230303030302c307831316330313437652c3078363830303030302c3078313332393830302c307831316330313638322c3078363830303030302c3078313332393830302c307831316330353166612c3078376330303130302c30783233303430382c307832303030303036372c3078313030302c302c307832303030306231332c3078323830323430302c,
  0x2020202030783936323436302c307832303030306231332c3078323830323530302c30783936323436302c307832303030316232372c3078323830323130302c30783936323436302c307832303030316232372c3078323830323130302c30783936323436312c307832303030316232372c3078323830323430302c30783936323436302c307832303030316232372c3078323830363430302c30783936323436302c,
  0x20202020307832303030316232372c3078323930323130302c30783936323436322c307832303030316232372c3078343030303030302c30783230303030302c307832303030316232372c3078343030303030302c30783430303030302c307832303030316232372c3078343030303030302c30783530303030302c307832303030316232372c3078343030303030302c30783831303030302c307832303030316232372c,
  0x202020203078343030303030302c30786230303030302c307832303030316232372c3078343030303030302c30786330303030622c307832303030316232372c3078343030303030302c3078313431303030302c307832303030316232372c3078343030303031302c30786230303030302c307832303030316232372c3078343030303031302c30786330303030302c307832303030316232372c3078363830303030302c,
  0x202020203078313332393830302c307832303030316232372c3078363830303130302c30783436323534302c307832303030316232372c3078363830303430302c30783936323534302c307832303030316232372c3078376330303130302c30783233303430302c307832303030316232372c3078376330303130302c30783233303430312c307832303030323631392c3078376330303130302c30783232303430312c,
  0x20202020307832303030326130302c3078343030303030302c3078313630303030302c307832303030346236372c302c3078313930303030302c307832303030346336372c302c3078313930303030302c307832303030346436372c302c3078313930303030302c307832303030366436372c3078313030302c302c307832303030366536372c,
  0x202020203078313030302c302c307832303032366436372c302c302c307832303032366536372c302c302c307832303061346131322c3078376330303130302c3078316633303463312c307832303061346131322c3078376330303130302c3078323033303465312c307832313030353630302c3078343030303030302c,
  0x2020202030783730303030302c307832313032326130302c3078343030303030302c3078313630303030302c307833303030303431392c3078376330303130302c30783232303430302c307833303030303431392c3078376330303130302c30783232303430312c307833303030303431392c3078376330303130302c30783235303430302c307833303030303431392c3078376330303130302c30783235303430312c,
  0x20202020307833303030303531392c3078376330303130302c30783232303430302c307833303030303630302c3078343030303430302c30783230303430302c307833303030303630302c3078376330303530302c30783233303430302c307833303030303630352c3078343030303430302c30783230303430302c307833303030303830652c3078376330303130302c30783232303430302c307833303030303930382c,
  0x202020203078323030302c30783936323436302c307833303030303930382c3078376330303130302c30783232303430302c307833303030303930382c3078376330303130302c30783232303430312c307833303030303930382c3078376330303130302c30783235303430302c307833303030303930382c3078376330303130302c30783235303430312c307833303030306130332c3078343030303030362c,
  0x2020202030783430303430302c307833303030306330322c3078343030303030302c30783230303030302c307833303030306330322c3078376330303130302c30783233303430302c307833303030306432322c3078323830323130302c30783936323436302c307833303030306432322c3078323830323430302c30783936323436302c307833303030306432322c3078323830323530302c30783936323436302c,
  0x20202020307833303030306432322c3078343030303030302c30783230303030302c307833303030306432322c3078343030303031302c30783230303030302c307833303030306432322c3078376330303130302c30783233303430302c307833303030306432322c3078633030303031302c30783234383030302c307833303030306432322c307838303030303030302c30783231383936302c307833303030306532352c,
  0x202020203078323830323530302c30783936323436302c307833303030306532352c3078376330303130302c30783233303430302c307833303030313832312c3078323830323130302c30783936323436302c307833303030313832312c3078323830363430302c30783936323436302c307833303030313832312c3078343030303030302c30783230303030302c307833303030313832312c3078363830303130302c,
  0x2020202030783936323534302c307833303030313832312c3078363830303130302c30783936323534312c307833303030313832312c3078376330303130302c30783233303430302c307833303030316232372c3078323830323130302c30783936323436302c307833303030316232372c3078323830323430302c30783936323436302c307833303030316232372c3078343030303030302c30783230303030302c,
  0x20202020307833303030316232372c3078343030303030302c30783430303030302c307833303030316232372c3078376330303130302c30783233303430302c307833303030316331632c3078323830323130302c3078313836323436302c307833303030316331632c3078323830323430302c3078313836323436302c307833303030316331632c3078323830363430302c3078313836323436302c307833303030316331632c,
  0x202020203078343030303030302c30783230303030302c307833303030316331632c3078363830303130302c3078313836323430302c307833303030316331632c3078363830303130302c3078313836323534302c307833303030316331632c3078376330303130302c3078313833303030302c307833303030316331632c3078376330303130302c3078313833303030312c307833303030316331632c3078633030303031302c,
  0x2020202030783434383030302c307833303030316630622c3078343030303030302c30783230303030302c307833303030316630622c3078343030303031302c30783230303030302c307833303030316630622c3078343030303031302c30783430303030302c307833303030316630622c3078363830303030302c30783230303030302c307833303030316630622c3078376330303130302c30783233303430302c,
  0x20202020307833303030316630622c3078633030303031302c30783234383030302c307833303030323030362c3078376330303130302c30783235303430302c307833303030323132382c3078343030303030302c30783230303030302c307833303030323132382c3078376330303130302c30783233303430302c307833303030323132382c3078633030303031302c30783234383030302c307833303030323231642c,
  0x202020203078343030303030302c30783831303030302c307833303030323231642c3078343030303030302c3078313431303030302c307833303030323231642c3078343030303030312c30783434353830302c307833303030323231642c3078376330303130302c30783233303430302c307833303030323330302c3078343030303031302c30783430303030302c307833303030323332302c3078376330303130302c,
  0x2020202030783233303430302c307833303030323431372c3078323830323130302c3078313836323436302c307833303030323431372c3078323830323430302c3078313836323436302c307833303030323431372c3078323830363430302c3078313836323436302c307833303030323431372c3078323838323030302c3078313836323436302c307833303030323431372c3078343030303030302c30783230303030302c,
  0x20202020307833303030323431372c3078343030303030302c30783430303030302c307833303030323431372c3078343030303030302c3078313630303030302c307833303030323431372c3078343030303031302c30783430303030302c307833303030323431372c3078343030303031302c3078313230303030302c307833303030323431372c3078363830303030302c3078313332393830302c307833303030323431372c,
  0x202020203078363830303130302c3078313836323534302c307833303030323431372c3078376330303130302c3078313833303030302c307833303030323431372c3078376430303130302c3078313833303030302c307833303030323531622c307838303030302c30786331383832302c307833303030323531622c3078323830323130302c30783936323436302c307833303030323531622c3078336330323130302c,
  0x2020202030783936323436302c307833303030323531622c3078343030303030302c30783230303030302c307833303030323531622c3078343030303030362c30783530303030302c307833303030323531622c3078343030303031302c30783430303030302c307833303030323531622c3078343030303031302c30786237303030302c307833303030323531622c3078343030303830302c30783230303030302c,
  0x20202020307833303030323531622c3078363830303030302c3078313332393830302c307833303030323531622c3078376330303130302c30783233303430302c307833303030323531622c3078376330303930302c30783233303430302c307833303030323531622c3078633030303031302c30786234383030302c307833303030323531622c307831323838323030302c30783936323436302c307833303030323830302c,
  0x20202020307832343030303030302c30783230303030302c307833303030323830302c307832633030303031302c3078313234383030322c307833303030323830302c307832633030303031302c307831353234383030322c307833303030326130302c3078343030303030302c3078313630303030302c307833303030326230312c3078323030302c30783936323436302c307833303030326230312c3078323030302c,
  0x202020203078383936323436302c307833303030326330302c3078343030303030302c30783230303030302c307833303030326330302c3078376330303130302c307831343232303430352c307833303030326431392c3078376330303130302c30783235303430302c307833303030326530302c307832343030303030302c30783230303030302c307833303030333030302c307832343030303030302c30783230303030302c,
  0x20202020307833303030333030302c307832343030303030302c3078343230303030302c307833303030333130302c307832343030303030302c30783230303030302c307833303030333630302c307832343030303030302c30783230303030302c307833303030333730302c307832343030303030302c3078343230303030302c307833303030333932652c307832343030303030302c30783230303030302c307833303030353031332c,
  0x202020203078376330303130302c3078323633333830312c307833303030353630302c302c30783931383832302c307833303032303630302c3078343030303430302c30783530303430302c307833303032303730312c3078323830323430302c30783936323436302c307833303032303730312c3078323830323430302c30786336323436302c307833303061336131312c3078343032303030302c,
  0x2020202030786530303030302c307833303061336131312c3078343032303030302c30786530303030322c307833303061336231312c3078343032303030302c30786530303030322c307833303061336330302c3078343030383030302c30786530303030302c307833303061336330302c3078343031303030302c30786530303030302c307833303061336431312c3078376330303330302c30786533303030322c,
  0x20202020307833303061343330352c3078376330303130302c30786533303430302c307833303061343631312c3078376334303330302c30786533303030302c307833303061343832392c3078376330303130302c30786533303430302c307833303061343832392c3078376330303930302c3078313233303430302c307833303061343932392c3078343030303030302c30786530303030302c307833303430323538662c,
  0x202020203078343030303031302c30783430303030302c307833303430323538662c3078343030303031302c30786237303030302c307833303430323538662c3078633030303031302c30786234383030302c307833303430323861662c3078343030303030312c30786334316330622c307833303461336462662c3078343030303030302c30786530303030302c307833303830306331652c3078323830323130302c,
  0x2020202030783936323436302c307833306330316338372c3078363830303030302c3078313332393830302c307833313030303830652c3078376330303132302c30783232303430322c307833313030303830652c3078376330303132302c30783235303430322c307833313030353136372c3078313030302c302c307833313030353831652c3078343030303030302c30783230303030302c,
  0x20202020307833313030353831652c3078376330303130302c30783233303430302c307833313030353930642c3078376330303130302c30783233303430302c307833313030356130392c3078376330303130302c30783232303430302c307833313030356130392c3078376330303130302c30783235303430302c307833313030356230302c3078343030303030302c30783230303030302c307833313030356330302c,
  0x20202020307838303030302c30783931383832302c307833313030356330302c3078323830323030302c30783936323436302c307833313030356330302c3078323830323430302c30783936323436302c307833313030356330302c3078343030303030302c30783230303030302c307833313030356330302c3078343030303030302c30783230303030312c307833313030356330302c3078363830303030302c,
  0x2020202030783936323534302c307833313030356330302c3078363830303430302c30783936323534302c307833313030356330312c3078323830323430302c30783936323436302c307833313030356430302c3078343030303032302c30783230303030352c307833313030356430302c3078363830303032302c3078313332393830352c307833313030356430302c3078376330303132302c30783232303430352c,
  0x20202020307833313030356430302c3078376330303132302c30783235303430352c307833313030363030302c307838323030302c3078383936323436302c307833313030363030302c30783138303030302c30783931383832302c307833313061356531312c3078376334303330302c30786533303030302c307833313061356631312c3078376330303330302c30786533303030312c307833323030303431392c,
  0x202020203078376330303130302c30783235303430302c307833323030303830652c3078343030303032302c30783230303030302c307833323030303830652c3078376330303130302c30783232303430302c307833323030303830652c3078376330303130302c30783235303430302c307833323030303930382c3078376330303130302c30783232303430302c307833323030303930382c3078376330303130302c,
  0x2020202030783235303430302c307833323030306330322c3078376330303130302c30783233303430302c307833323030306532352c3078376330303130302c30783233303430302c307833323030316430632c3078376330303130302c30783233303430302c307833323030323830302c307838303030302c3078316531383832302c307833323030323830302c307838303032302c30783231383832302c,
  0x20202020307833323030323830302c3078343030303030312c30783434353830322c307833323030323830302c307832343030303030302c30783230303030302c307833323030323830302c307832343030303030302c30783230303030322c307833323030323830302c307832343030303032302c30783230303030302c307833323030323830302c307832633030303031302c3078313234383030322c307833323030323931392c,
  0x202020203078376330303130302c30783232303430662c307833323030326130302c3078343030303030302c3078313630303030302c307833323030326230312c3078323030302c30783936323436302c307833323030326230312c3078323830323030302c30783936323436302c307833323030326230312c3078323830323032302c30783936323436302c307833323030326330302c3078343030303030302c,
  0x2020202030783230303030302c307833323030326330302c3078343030303032302c30783230303030302c307833323030326330302c3078343030303032302c30783230303030352c307833323030326330302c3078376330303132302c30783232303430352c307833323030326330302c3078376330303132302c30783235303430352c307833323030326530302c307832343030303032302c30783230303030302c,
  0x20202020307833323030326630302c307832343030303032302c30783230303030302c307833323030333030302c307832343030303030302c30783230303030302c307833323030333030302c307832343030303032302c30783230303030302c307833323030333530302c307832343030303030302c30783230303030302c307833323030333630302c307832343030303032302c30783230303030302c307833323030333630302c,
  0x20202020307832343030303032302c307831343230303030302c307833323030333730302c307832343030303030302c30783230303030302c307833323030333730302c307832343030303030302c3078343130303030302c307833323030333730302c307832343030303030302c3078343230303030302c307833323030333730302c307832343030303030302c307831343230303030302c307833323030333830302c307832343030303030302c,
  0x2020202030783831303030302c307833323030333830302c307832343030303030302c3078313431303030302c307833323030353130322c3078343030303030302c3078313530303030382c307833323030353530322c3078376330303130302c30783233303430302c307833323030363130382c3078376330303130302c30783232303430302c307833323030363130382c3078376330303130302c30783235303430302c,
  0x20202020307833323030363232612c3078323830323130302c30783936323436302c307833323030363232612c3078323830363030302c30783936323436302c307833323030363232612c3078376330303130302c30783233303430302c307833323030363332622c3078323830323130302c30783936323436302c307833323030363332622c3078323830363030302c30783936323436302c307833323030363332622c,
  0x202020203078376330303130302c30783233303430302c307833323030363432632c3078323830323130302c30783936323436302c307833323030363432632c3078376330303130302c30783233303430302c307833323030363532642c3078323830323130302c30783936323436302c307833323030363532642c3078376330303130302c30783233303430302c307833323030363630302c307832343030303032302c,
  0x2020202030783230303030302c307833323030363730302c307832343030303032302c30783230303030302c307833323030363830302c307832343030303032302c30783230303030302c307833323030363830302c307832343030303032302c307831343230303030302c307833323030363930302c307832343030303032302c30783230303030302c307833323030363930302c307832343030303032302c30783831303030302c,
  0x20202020307833323030363930302c307832343030303032302c3078313431303030302c307833323030366130302c307832343030303032302c30783230303030302c307833323030366130302c307832343030303032302c30783230303030312c307833323030366130302c307832343030303032302c30783230303030322c307833323032303730312c3078323838323030302c30786336323436302c307833323032333330302c,
  0x202020203078343030303030302c30783130303030302c307833323032366330312c307831323838323030302c30783936323436302c307833323032366330312c307831323838323030302c3078383936323436302c307833323036353730302c3078343030303030302c30783831303031312c307833323036353730302c3078343030303030302c3078313431303031312c307833323038363630302c307832343030303032302c,
  0x2020202030783831303030302c307833323038363630302c307832343030303032302c3078313431303030302c307833323038363930302c307832343030303032302c30783831303030302c307833323038363930302c307832343030303032302c3078313431303030302c307833323061333630302c307832343030303032302c307833343230303030302c307833323061336431312c3078376330303130302c3078313233303430302c,
  0x20202020307833323061336531342c3078376330303130302c30786533303031302c307833323061336531342c3078376330303130302c3078323533303030302c307833323061336631362c3078376330303130302c30786533306331302c307833323061343430302c3078343030303030302c30786530303030332c307833323061343932392c3078343030303030302c30786530303030302c307833323061346631312c,
  0x202020203078376330303330302c30786533303030312c307833323061366231362c3078376330303130302c3078323533306330302c307833323430363338622c3078633030303031302c30783434383030302c307833323461336463322c3078343030303030302c307831346530303030302c307833323461336463322c3078376330303130302c3078313233303430302c307833323461336662642c3078343030303030322c,
  0x202020203078313230306330302c307833323461353362612c307832343030303030302c30786530303030302c307833323832303730312c3078323830323030302c30783936323436302c307834303030303431392c3078376330303130302c30783232303430302c307834303030303531392c3078376330303130302c30783232303430302c307834303030303630302c3078343030303430302c30783230303430302c,
  0x20202020307834303030303830652c3078376330303130302c30783232303430302c307834303030303830652c3078376330303130302c30783235303430302c307834303030303830652c3078376330303130302c30783235303430322c307834303030306330322c3078323830323130302c30783936323436302c307834303030306330322c3078323830323430302c30783936323436302c307834303030306330322c,
  0x202020203078323830323530302c30783936323436302c307834303030306330322c3078343030303030302c30783230303030302c307834303030306330322c3078343030303030302c3078313037313430302c307834303030306330322c3078376330303130302c30783233303430302c307834303030306330322c307838303030303030302c30783231383936302c307834303030306432322c3078376330303130302c,
  0x2020202030783233303430302c307834303030306630612c3078376330303130302c30783233303430302c307834303030313030342c3078376330303130302c30783233303430302c307834303030313131302c3078323830323130302c30783936323436302c307834303030313131302c3078363830303130302c30783936323534302c307834303030313230662c3078323830323130302c30783936323436302c,
  0x20202020307834303030313230662c3078343030303030302c3078313630303030302c307834303030313230662c3078376330303130302c30783233303430302c307834303030313331662c3078376330303130302c30783233303430302c307834303030313432332c3078343030303030302c30783230303030302c307834303030313432332c3078343030303030302c3078313630303030302c307834303030313631352c,
  0x202020203078323830323430302c30783936323436302c307834303030313631352c3078376330303130302c30783233303430302c307834303030323431372c3078323830323430302c3078313836323436302c307834303030323431372c3078343030303030302c30783230303030302c307834303030323830302c3078363830303030302c30783230316330302c307834303030323830302c307832343030303030322c,
  0x2020202030783230303030302c307834303030326330302c3078343030303030302c30783230303030322c307834303030333030302c307832343030303030302c307831343230303030302c307834303030333030302c307832343030303032302c30783230303030302c307834303030333730302c307832343030303030302c30783230303030302c307834303030333730302c307832343030303030302c3078343230303030302c,
  0x20202020307834303030333730302c307832343030303030302c307831343230303030302c307834303030356130392c3078376330303130302c30783232303430302c307834303030356130392c3078376330303130302c30783235303430302c307834303030356430302c3078376330303132302c30783232303430352c307834303030366633302c3078323830323130302c30783936323436302c307834303030366633302c,
  0x202020203078323830323430302c30783936323436302c307834303030366633302c3078343030303030302c30783230303030302c307834303030366633302c3078363830303030302c3078313332393830302c307834303030366633302c3078363830303130302c30783936323534302c307834303030366633302c3078376330303130302c30783233303430302c307834303030366633302c3078633030303031302c,
  0x2020202030786234383030302c307834303030373033342c3078376330303130302c3078313833303030302c307834303030373131372c3078343030303030302c30783230303030302c307834303030373230382c3078376330303130302c30783232303430302c307834303030373230652c3078376330303130302c30783232303430302c307834303030373230652c3078376330303530302c30783232303430652c,
  0x20202020307834303030373230652c3078376330303530302c30783232303430662c307834303030373231392c3078376330303130302c30783232303430302c307834303030373231392c3078376330303530302c30783232303430302c307834303030373231392c3078376330303530302c30783232303430652c307834303030373231392c3078376330303530302c30783232303430662c307834303030373330302c,
  0x20202020307832343030303030302c30783230303030302c307834303030373330302c307832343030303030302c307831343230303030302c307834303030373430302c3078343030303030302c30783230303030302c307834303030373533312c3078376330303130302c30783233303430302c307834303030373633312c3078376330303130302c30783233303430302c307834303030373833352c3078343030303031302c,
  0x2020202030783430303030302c307834303030373833352c3078376330303130302c30783233303430302c307834303030373933332c3078376330303130302c30783233303430302c307834303030376133322c3078363830303030302c3078313332393830302c307834303030376133322c3078376330303130302c30783233303430302c307834303030376232662c3078376330303130302c30783233303430302c,
  0x20202020307834303030376330302c3078343030303030302c30783230303030302c307834303032303730312c3078323830323430302c30783936323436302c307834303032303730312c3078323830323430302c30786336323436302c307834303032333330302c3078343030303030302c30783230303030302c307834303032376430312c307831323838323030302c30783936323436302c307834303061333730302c,
  0x20202020307832343030303030302c307833343230303030302c307834303061333730302c307832343030303030302c307833346530303030302c307834303061343430302c3078343030303030302c30786530303030642c307834303061343431322c3078343030303030302c30786530303030322c307834303061343431322c3078343030303030302c30786530303030332c307834303061343530302c3078343030303030302c,
  0x2020202030786530303030642c307834303061353330302c3078343030303030302c30783831303031302c307834303061353330302c3078343030303030302c3078313431303031302c307834303430373766632c3078343030303030302c30783230303030302c307834303430373766662c3078343030303030302c30783230303030302c307834303430373766662c3078343030303030302c30783430303030302c,
  0x20202020307834306330313437652c3078343030303030302c30783230303030302c307834306330353166612c3078343030303030302c30783230303030302c307834313030303431392c3078376330303130302c30783232303430302c307834313030303431392c3078376330303130302c30783235303430302c307834313030303830652c3078376330303130302c30783232303430302c307834313030303830652c,
  0x202020203078376330303130302c30783235303430302c307834313030303930382c3078376330303130302c30783232303430302c307834313030303930382c3078376330303130302c30783235303430302c307834313030306231332c3078323830323030302c30783936323436302c307834313030306231332c3078323830323130302c30783936323436302c307834313030306231332c3078343030303030302c,
  0x2020202030786230303030302c307834313030306330322c3078323830323130302c30783936323436302c307834313030306330322c3078343030303030302c3078313530303030302c307834313030306330322c3078633030303031302c30786234383030302c307834313030306630612c3078376330303130302c30783233303430302c307834313030313030342c3078376330303130302c30783233303430302c,
  0x20202020307834313030313432332c3078376330303130302c30783233303430302c307834313030316232372c3078343030303030302c30783530303030302c307834313030316430632c3078376330303130302c30783233303430302c307834313030316430632c3078376330303130302c30783233303430662c307834313030316630622c3078323830323430302c30783936323436302c307834313030316630622c,
  0x202020203078343030303030302c30783230303030302c307834313030316630622c3078376330303130302c30783233303430302c307834313030323830302c307832343030303030302c30783230303030302c307834313030323830302c307832343030303030302c30783430303030302c307834313030323931392c3078376330303130302c30783232303430652c307834313030326130302c3078343030303030302c,
  0x202020203078313630303030302c307834313030326230312c3078323830323032302c30783936323436302c307834313030326330302c3078343030303030302c30783230303030302c307834313030326330302c3078376330303132302c30783232303430352c307834313030333030302c307832343030303030302c30783230303030302c307834313030333730302c307832343030303030302c3078343230303030302c,
  0x20202020307834313030333730302c307832343030303030302c307831343230303030302c307834313030333730302c307832343030303030302c307831346530303030302c307834313030356430302c3078376330303132302c30783232303430352c307834313030363630302c307832343030303032302c30783230303030302c307834313030363630302c307832343030303032302c30783831303030302c307834313030363630302c,
  0x20202020307832343030303032302c3078313431303030302c307834313030373230382c3078376330303130302c30783232303430662c307834313030373231392c3078376330303130302c30783232303430302c307834313030373330302c307832343030303030302c30783230303030302c307834313030376530652c3078323830323030302c30783936323436302c307834313030376530652c3078343030303030302c,
  0x2020202030783230303030302c307834313030376630652c3078343030303030302c30783230303030302c307834313030376630652c3078376330303130302c30783233303430302c307834313030383030322c3078376330303130302c30783233303430302c307834313030383133372c3078323830323130302c30783936323436302c307834313030383133372c3078343030303030302c30783230303030302c,
  0x20202020307834313030383133372c3078363830303130302c30783936323534302c307834313030383133372c3078376330303130302c30783233303430302c307834313030383330312c3078323830323030302c30783936323436302c307834313030383430372c3078343030303030302c30783230303030302c307834313030383430372c3078343030303030302c30783430303030302c307834313030383430372c,
  0x202020203078343030303030302c30786230303030302c307834313030383430372c3078376330303130302c30783232303430302c307834313030383430372c3078376330303130302c30783235303430302c307834313030383530622c3078376330303130302c30783233303430302c307834313030383630622c3078343030303030302c30783230303030302c307834313030383630622c3078376330303130302c,
  0x2020202030783233303430302c307834313030383730632c3078376330303130302c30783232303430302c307834313030383833382c3078376330303130302c30783232303430302c307834313030383833382c3078376330303130302c30783235303430302c307834313030383933392c3078323830323030302c30783936323436302c307834313030383933392c3078323830323130302c30783936323436302c,
  0x20202020307834313030383933392c3078323830363030302c30783936323436302c307834313030383933392c3078343030303030302c30783230303030302c307834313030383933392c3078343030303030302c30783430303030302c307834313030383933392c3078376330303130302c30783233303430302c307834313030383933392c3078633030303031302c30783434383030302c307834313030386130302c,
  0x202020203078343030303430302c30783230303430302c307834313030386233622c3078343030303030302c3078313830303030302c307834313030386233622c3078363830303030302c3078313332393830302c307834313030386233622c3078376330303130302c3078313833303030302c307834313030386233622c3078376530303130302c3078313833303030302c307834313030386333642c3078343030303031302c,
  0x2020202030783430303030302c307834313030386333642c3078376330303130302c30783233303430302c307834313030386430652c3078376330303130302c30783232303430662c307834313030386431392c3078376330303130302c30783232303430302c307834313030386431392c3078376330303130302c30783232303430662c307834313030386530302c307832343030303030302c30783230303030302c,
  0x20202020307834313030386530302c307832343030303030302c30783430303030302c307834313030386530302c307832343030303030302c3078313731303030302c307834313030386530302c307832343030303030362c30783430303030302c307834313030386633612c3078323830323130302c30783936323436302c307834313030386633612c3078323830363030302c30783936323436302c307834313030386633612c,
  0x202020203078343030303030302c30783230303030302c307834313030386633612c3078363830303130302c30783936323534302c307834313030386633612c3078376330303130302c30783233303430302c307834313030393033632c3078376330303130302c30783233303430302c307834313030393033632c3078376330303130302c30783233303430662c307834313032303730312c3078323830323030302c,
  0x2020202030783936323436302c307834313032303730312c3078323830323030302c30786336323436302c307834313061333730302c307832343030303030302c307833343230303030302c307834313061333730302c307832343030303030302c307833346530303030302c307834313061343431322c3078343030303030302c30786530303030332c307834313061343731312c3078376334303330302c30786533303030302c,
  0x20202020307834313061346631312c3078376330303330302c30786533303030312c307834313061393130302c3078343030303030302c30783830303031302c307834313061393130302c3078343030303030302c30783831303031302c307834313061393130302c3078343030303030302c30783837303031302c307834313061393130302c3078343030303030302c30786230303031302c307834313061393130302c,
  0x202020203078343030303030302c30786630303031302c307834313061393130302c3078343030303030302c3078313030313431302c307834313061393130302c3078343030303030302c3078313037313031302c307834313061393130302c3078343030303030302c3078313037313431302c307834313061393130302c3078343030303030302c3078313431303031302c307834313430386163352c3078343030303430302c,
  0x2020202030783230303030302c307834313461383262662c3078343030303030302c30786530303030302c307834313830383330302c3078323830323030302c30783936323436302c307834316330313437652c3078363830303030302c3078313332393830302c307835303030303431392c3078376330303130302c30783232303430302c307835303030303431392c3078376330303130302c30783235303430302c,
  0x20202020307835303030303830652c3078376330303130302c30783232303430302c307835303030303930382c3078376330303130302c30783232303430302c307835303030303930382c3078376330303130302c30783235303430302c307835303030306231332c3078323830323530302c30783936323436302c307835303030306630612c3078376330303130302c30783233303430302c307835303030313631352c,
  0x202020203078323830323130302c30783936323436302c307835303030313631352c3078376330303130302c30783233303430302c307835303030326230312c3078323830323032302c30783936323436302c307835303030326330302c3078343030303030302c30783230303030302c307835303030326331392c3078376330303130302c30783232303430302c307835303030326431392c3078376330303130302c,
  0x2020202030783232303430302c307835303030333030302c307832343030303030302c30783230303030302c307835303030333030302c307832343030303032302c30783230303030302c307835303030333730302c307832343030303030302c3078343230303030302c307835303030356430302c3078376330303132302c30783232303430352c307835303030356430302c3078376330303132302c30783235303430352c,
  0x20202020307835303030363130382c3078376330303130302c30783232303430302c307835303030363130382c3078376330303130302c30783235303430302c307835303030363630302c307832343030303032302c30783230303030302c307835303030373330302c307832343030303030302c30783230303030302c307835303030383330312c3078323830323430302c30783936323436302c307835303030386130302c,
  0x202020203078376330303530302c30783233303430302c307835303030393235372c3078323830323430302c30783936323436302c307835303030393235372c3078343030303030302c30783230303030302c307835303030393235372c3078343030303031302c3078313037313430302c307835303030393235372c3078363830303030302c3078313332393830302c307835303030393235372c3078376330303130302c,
  0x2020202030783233303430302c307835303030393235372c3078376330303530302c30783233303430302c307835303030393235372c3078376330303930302c30783233303430302c307835303030393235372c3078633030303031302c30786234383030302c307835303030393333652c3078323830323130302c30783936323436302c307835303030393333652c3078323830323430302c30783936323436302c,
  0x20202020307835303030393333652c3078343030303030302c30783230303030302c307835303030393333652c3078343030303030302c30783430303030302c307835303030393333652c3078343030303031302c30783430303030302c307835303030393333652c3078363830303030302c3078313332393830302c307835303030393333652c3078363830303130302c30783936323534302c307835303030393333652c,
  0x202020203078363830303130302c30783936323534312c307835303030393333652c3078363830343430302c30783936323534302c307835303030393333652c3078376330303130302c30783233303430302c307835303030393333652c3078376330303130302c30783233303430312c307835303030393333652c3078633030303031302c30783434383030302c307835303030393431392c3078376330303130302c,
  0x2020202030783232303430302c307835303030393431392c3078376330303130302c30783235303430302c307835303030393530302c3078343030303430302c30783230303430302c307835303030393635612c3078343030303030302c30783530303030302c307835303030393635612c3078376330303130302c30783233303430302c307835303030393635612c3078633030303031302c30786234383030302c,
  0x20202020307835303030393735622c3078343030303030302c30783230303030302c307835303030393735622c3078343030303031302c30783430303030302c307835303030393735622c3078376330303130302c30783233303430302c307835303030393836352c3078376330303130302c30783233303430302c307835303030393936352c3078343030303031302c30783430303030302c307835303030393936352c,
  0x202020203078376330303130302c30783233303430302c307835303430396162662c3078343030303030302c30783230303030302c307835313030303830652c3078376330303130302c30783232303430302c307835313030303830652c3078376330303130302c30783235303430302c307835313030306330322c3078323830323130302c30783936323436302c307835313030306330322c3078343030303030302c,
  0x202020203078313530303030302c307835313030306330322c3078343030303032302c30783230303030302c307835313030306330322c3078376330303130302c30783233303430302c307835313030306630612c3078376330303130302c30783233303430302c307835313030306630612c3078376330303530302c30783233303430302c307835313030313131302c3078323830323130302c30783936323436302c,
  0x20202020307835313030313331662c3078323830323130302c30783936323436302c307835313030313432332c3078376330303130302c30783233303430302c307835313030313532342c3078323830323130302c30783936323436302c307835313030313532342c3078343030303030302c30783230303030302c307835313030313532342c3078376330303130302c30783233303430302c307835313030313731612c,
  0x202020203078323830323130302c30783936323436302c307835313030313731612c3078343030303030302c30783230303030302c307835313030313731612c3078343030303030302c3078313530303030302c307835313030313731612c3078376330303130302c30783233303430302c307835313030316232372c3078343030303030302c30783230303030302c307835313030316232372c3078343030303030302c,
  0x2020202030783430303030302c307835313030316232372c3078343030303030302c30783530303030302c307835313030316232372c3078376330303130302c30783233303430302c307835313030316331632c3078323830323130302c3078313836323436302c307835313030316331632c3078323830323530302c3078313836323436302c307835313030316331632c3078323830363430302c3078313836323436302c,
  0x20202020307835313030316331632c3078343030303030302c3078313830303030302c307835313030316331632c3078363830303030302c3078313332393830302c307835313030316331632c3078363830303130302c3078313836323430302c307835313030316331632c3078363830303130302c3078313836323534302c307835313030316331632c3078363830303530302c3078313836323430302c307835313030316331632c]

/-- UnicodeData/CharPropsData.py:3627-3808 the lines. -/
def charText18 : List Nat :=
 [0x202020203078376330303130302c3078313833303030302c307835313030323531622c3078376330303130302c30783233303430302c307835313030323631392c3078376330303130302c30783232303430302c307835313030323631392c3078376330303130302c30783235303430302c307835313030323830302c307838303032302c30783231383832302c307835313030326330302c3078343030303030302c,
  0x2020202030783230303030302c307835313030326431392c3078376330303130302c30783233303430302c307835313030333730302c307832343030303030302c3078343230303030302c307835313030333730302c307832343030303030302c3078346530303030302c307835313030353230312c3078323830323430302c30783936323436302c307835313030356330302c3078343030303030302c30783230303030302c,
  0x20202020307835313030363130382c3078376330303130302c30783232303430302c307835313030363130382c3078376330303130302c30783235303430302c307835313030363630302c307832343030303032302c30783230303030302c307835313030363630302c307832343030303032302c30783831303030302c307835313030363630302c307832343030303032302c3078313431303030302c307835313030373330302c,
  0x20202020307832343030303030302c30783230303030302c307835313030373330302c307832343030303032302c30783230303030302c307835313030383030322c3078376330303130302c30783233303430302c307835313030383330312c3078323830323030302c30783936323436302c307835313030383330312c3078323830323430302c30783936323436302c307835313030386130302c3078376330303530302c,
  0x2020202030783233303430302c307835313030386530302c307832343030303030302c30783230303030302c307835313030386530302c307832343030303030302c30783430303030302c307835313030386530302c307832343030303030302c30783831303030302c307835313030386530302c307832343030303030302c3078313430303030302c307835313030386530302c307832343030303030302c3078313431303030302c,
  0x20202020307835313030386530302c307832343030303030302c3078313731303030302c307835313030386530302c307832343030303030322c30783230303030302c307835313030386530302c307832343030303530302c30783233303430302c307835313030386530302c307832633030303031302c30786234383030302c307835313030393431392c3078376330303130302c30783232303430302c307835313030393431392c,
  0x202020203078376330303130302c30783232303430652c307835313030393431392c3078376330303130302c30783232303430662c307835313030393431392c3078376330303130302c30783235303430302c307835313030393530302c3078343030303430302c30783230303430302c307835313030393530302c3078376330303530302c30783233303430302c307835313030393531392c3078376330303130302c,
  0x2020202030783232303430302c307835313030393531392c3078376330303130302c30783232303430662c307835313030393531392c3078376330303130302c30783233303430302c307835313030393531392c3078376330303130302c30783235303430302c307835313030396237312c3078323830323130302c30783936323436302c307835313030396237312c3078363830303030302c3078313332393830302c,
  0x20202020307835313030396237312c3078363830303130302c30783936323534302c307835313030396237312c3078363830343430302c30783936323534302c307835313030396237312c3078376330303130302c30783233303430302c307835313030396335322c3078323830323130302c30783936323436302c307835313030396335322c3078323830323430302c30783936323436302c307835313030396335322c,
  0x202020203078323830326430302c30783936323436302c307835313030396335322c3078343030303031302c30783430303030302c307835313030396335322c3078363830303030302c3078313332393830302c307835313030396335322c3078363830303130302c30783936323534302c307835313030396335322c3078376330303130302c30783233303430302c307835313030396335322c3078633030303031302c,
  0x2020202030783434383030302c307835313030396436642c3078363830303030302c3078313332393830302c307835313030396436642c3078376330303130302c30783233303430302c307835313030396436642c3078376330303530302c30783233303430302c307835313030396436642c3078376330306430302c30783233303430302c307835313030396436642c3078633030303031302c30783434383030302c,
  0x20202020307835313030396530382c3078323830323130302c30783936323436302c307835313030396636332c3078343030303031302c30783430303030302c307835313030396636332c3078363830303030302c3078313332393830302c307835313030396636332c3078376330303130302c30783233303430302c307835313030396636332c3078376330303930302c30783233303430302c307835313030396636332c,
  0x202020203078633030303031302c30783434383030302c307835313030396636332c3078633030303031302c30786234383030302c307835313030613030382c3078323030302c30783936323436302c307835313030613030382c3078323830323430302c30783936323436302c307835313030613030382c3078343030303030302c30783230303030302c307835313030613030382c3078376330303130302c,
  0x2020202030783232303430302c307835313030613030382c3078376330303130302c30783233303430302c307835313030613030382c3078376330303130302c30783235303430302c307835313030613030382c3078376330303530302c30783233303430302c307835313030613136662c3078323830363430302c30783936323436302c307835313030613136662c3078363830303030302c3078313332393830302c,
  0x20202020307835313030613136662c3078363830303130302c30783936323534302c307835313030613136662c3078376330303130302c30783233303430302c307835313030613136662c3078633030303031302c30783434383030302c307835313030613234662c3078323830323130302c30783936323436302c307835313030613234662c3078323830323430302c30783936323436302c307835313030613234662c,
  0x202020203078363830303030302c3078313332393830302c307835313030613234662c3078376330303130302c30783233303430302c307835313030613234662c3078633030303031302c30783434383030302c307835313030613336652c3078323830323130302c30783936323436302c307835313030613336652c3078343030303030302c30783230303030302c307835313030613336652c3078363830303130302c,
  0x2020202030783936323534302c307835313030613336652c3078363830343430302c30783936323534302c307835313030613336652c3078376330303130302c30783233303430302c307835313030613434322c3078323830323130302c30783936323436302c307835313030613434322c3078343030303030302c30783230303030302c307835313030613434322c3078363830303030302c3078313332393830302c,
  0x20202020307835313030613434322c3078363830303130302c30783936323534302c307835313030613434322c3078376330303130302c30783233303430302c307835313030613434322c3078633030303031302c30783434383030302c307835313030613530302c3078343030303030302c30783230303030302c307835313030613630302c3078343030303030302c30783230303030302c307835313030613630312c,
  0x202020203078323830323030302c30783936323436302c307835313030613736622c3078376330303130302c30783233303430302c307835313030613836382c3078376330303130302c30783233303430302c307835313030613936632c3078343030303030302c30783230303030302c307835313030613936632c3078376330303130302c30783233303430302c307835313030616130302c3078343030303030302c,
  0x202020203078346530303030302c307835313030616230302c3078343030303030302c3078346530303030302c307835313038363630302c307832343030303032302c30783831303030302c307835313038363630302c307832343030303032302c3078313431303030302c307835313061343030352c3078376330303130302c30786533303430302c307835313061343731312c3078376334303330302c30786533303030302c,
  0x20202020307835313061373330302c307832343030303030302c307833343230303030302c307835313061616130302c3078343030303030302c307833346530303030302c307835313430613266332c3078343030303430302c30783430303030302c307835313461383262662c3078343030303030302c30786530303030302c307835313830326262312c3078323830323030302c30783936323436302c307835316330303930382c,
  0x202020203078323830323430302c30783936323436302c307835316330613030382c3078323830323430302c30783936323436302c307835323030306630612c3078323830323130302c30783936323436302c307835323030306630612c3078363830303130302c30783936323534302c307835323030306630612c3078376330303130302c30783233303430302c307835323030313030342c3078343030303030302c,
  0x202020203078313630303030302c307835323030316230302c3078343030303030302c30783230303030302c307835323030316331632c3078323830323130302c3078313836323436302c307835323030316331632c3078363830303130302c3078313836323430302c307835323030316331632c3078363830303530302c3078313836323430302c307835323030316531322c3078376330303130302c3078323233303530302c,
  0x20202020307835323030316531322c3078376330303130302c3078323333303532302c307835323030323132382c3078343030303030322c30783430303030302c307835323030323132382c3078376330303130302c30783233303430302c307835323030326130302c3078343030303030302c3078313530303030302c307835323030326130302c3078343030303030302c3078313630303030302c307835323030326430302c,
  0x202020203078343030303030302c30783230303030362c307835323030333030302c307832343030303030302c30783230303030302c307835323030363130382c3078376330303130302c30783232303430302c307835323030363130382c3078376330303130302c30783235303430302c307835323030383330312c3078323830323430302c30783936323436302c307835323030383430372c3078323830323430302c,
  0x2020202030783936323436302c307835323030383430372c3078376330303130302c30783232303430302c307835323030383430372c3078376330303130302c30783235303430302c307835323030386233622c3078363830303030302c3078313830303030302c307835323030386233622c3078376330303130302c3078313833303030302c307835323030386530302c307832343030303030302c30783430303030302c,
  0x20202020307835323030393431392c3078376330303130302c30783235303430302c307835323030393735622c3078343030303030302c30783230303030302c307835323030616337652c3078323830323030302c30783936323436302c307835323030616337652c3078323830323130302c30783936323436302c307835323030616337652c3078323830323430302c30783936323436302c307835323030616337652c,
  0x202020203078343030303031302c30783230303030302c307835323030616337652c3078376330303130302c30783233303430302c307835323030616337652c3078633030303031302c30783234383030302c307835323030616432382c3078376330303130302c30783233303430302c307835323030616536612c3078323830323130302c3078313836323436302c307835323030616536612c3078323830323430302c,
  0x2020202030783936323436302c307835323030616536612c3078323830323430302c3078313836323436302c307835323030616536612c3078323830363030302c3078313836323436302c307835323030616536612c3078343030303030302c3078313830303030302c307835323030616536612c3078363830303030302c3078313332393830302c307835323030616536612c3078363830303130302c3078313836323430302c,
  0x20202020307835323030616536612c3078363830303130302c3078313836323534302c307835323030616536612c3078376330303130302c3078313833303030302c307835323030616536612c3078376330303930302c3078313833303030302c307835323030616536612c3078633030303031302c3078313834383030302c307835323030623038332c3078343030303031302c30783430303030302c307835323030623038332c,
  0x202020203078376330303130302c30783233303430302c307835323030623038332c3078633030303031302c30783434383030302c307835323030623138322c3078323830323430302c30783936323436302c307835323030623138322c3078343030303030302c30783230303030302c307835323030623138322c3078343030303031302c30783430303030302c307835323030623138322c3078376330303130302c,
  0x2020202030783233303430302c307835323030623138322c3078633030303031302c30783434383030302c307835323030623330612c3078323830323430302c30783936323436302c307835323030623330612c3078343030303030302c30783230303030302c307835323030623330612c3078376330303130302c30783233303430302c307835323030623534652c3078323830323130302c30783936323436302c,
  0x20202020307835323030623534652c3078323830323430302c30783936323436302c307835323030623534652c3078343030303030302c30783230303030302c307835323030623534652c3078343030303031302c30783430303030302c307835323030623534652c3078363830303030302c3078313332393830302c307835323030623534652c3078363830303130302c30783936323534302c307835323030623534652c,
  0x202020203078363830343430302c30783936323534302c307835323030623534652c3078376330303130302c30783233303430302c307835323030623534652c3078633030303031302c30783434383030302c307835323030623631632c3078343030303030302c3078313830303030302c307835323030623631632c3078363830303530302c3078313836323430302c307835323030623631632c3078376330303130302c,
  0x202020203078313833303030302c307835323030623631632c3078376330303930302c3078313833303030302c307835323030623737662c3078323830323130302c3078313836323436302c307835323030623737662c3078323830323430302c3078313836323436302c307835323030623737662c3078343030303030302c3078313830303030302c307835323030623737662c3078343030303031302c3078313830303030302c,
  0x20202020307835323030623737662c3078376330303130302c3078313833303030302c307835323030623737662c3078376330303530302c3078313833303030302c307835323030623737662c3078376330303930302c3078313833303030302c307835323030623737662c3078376530303130302c3078313833303030302c307835323030623837332c3078323830323130302c30783936323436302c307835323030623837332c,
  0x202020203078323830363430302c30783936323436302c307835323030623837332c3078363830303030302c3078313332393830302c307835323030623837332c3078363830303130302c30783936323534302c307835323030623837332c3078363830303430302c30783936323534302c307835323030623837332c3078376330303130302c30783233303430302c307835323030623837332c3078633030303031302c,
  0x2020202030783434383030302c307835323030623931322c3078376330303130302c3078323233303530302c307835323030623931322c3078376330303130302c3078323333303532302c307835323030626137342c3078343030303030302c30783230303030302c307835323030626137342c3078343030303031302c30783430303030302c307835323030626137342c3078376330303130302c30783233303430302c,
  0x20202020307835323030626238352c3078343030303030302c30783230303030302c307835323030626238352c3078376330303130302c30783233303430302c307835323030626337352c3078343030303030302c30783430303030302c307835323030626337352c3078343030303031302c30783430303030302c307835323030626337352c3078376330303130302c30783233303430302c307835323030626437642c,
  0x202020203078343030303030302c30783230303030302c307835323030626437642c3078376330303130302c30783233303430302c307835323030626537612c3078343030303030302c30783230303030302c307835323030626537612c3078376330303130302c30783233303430302c307835323030626635382c3078376330303130302c30783233303430302c307835323030633030322c3078343030303030302c,
  0x2020202030783230303030302c307835323030633137382c3078323830323030302c30783936323436302c307835323030633137382c3078323830323130302c30783936323436302c307835323030633137382c3078323830323430302c30783936323436302c307835323030633137382c3078323830363430302c30783936323436302c307835323030633137382c3078343030303030302c30783230303030302c,
  0x20202020307835323030633137382c3078363830303130302c30783936323534302c307835323030633137382c3078376330303130302c30783233303430302c307835323030633137382c3078376330303130302c30783233303430312c307835323030633137382c3078633030303031302c30783434383030302c307835323030633137382c307838303030303030302c30783231383936302c307835323030633234372c,
  0x202020203078376330303130302c30783233303430302c307835323030633234372c3078376330303130302c30783833303430302c307835323030633234372c3078376330303130302c3078313433303430302c307835323030633330302c3078343030303030302c30783230303030332c307835323032326430302c3078343030303030302c30783130303030362c307835323032333730302c307832343030303030302c,
  0x202020203078343130303030302c307835323032333730302c307832343030303030302c3078346530303030302c307835323032333730302c307832343030303030302c307831343130303030302c307835323032333730302c307832343030303030302c307831346530303030302c307835323032333730302c307832343030303030302c307839363830303030302c307835323032343430302c3078343030303030302c30783130303030302c,
  0x20202020307835323032373330302c307832343030303030302c30783130303030302c307835323032633330302c3078343030303030302c30783130303030302c307835323032633330302c3078343030303030302c30783130303030322c307835323032633330302c3078343030303030302c30783130303030332c307835323032633330302c3078343030303030302c30783130303030642c307835323032633330302c,
  0x202020203078343030303130302c30783135303430302c307835323032633330302c3078343030303130302c30783135303430642c307835323032633330302c3078343030303130302c307831343135303430302c307835323061316531322c3078376330303130302c3078323133303438302c307835323061333730302c307832343030303030302c307833346530303030302c307835323061333830302c307832343030303030302c,
  0x20202020307833343130303030302c307835323061343731312c3078376334303330302c30786533303030302c307835323061346631312c3078376330303330302c30786533303030312c307835323061373330302c307832343030303030302c307833343130303030302c307835323061623431322c3078376330303130302c3078323133303438302c307835323061633430302c3078343030303030302c30786530303030322c,
  0x20202020307835323061633430302c3078343030303030302c30786530303030642c307835323061633430302c3078343030303030302c307833346530303030642c307835323061633431342c3078343030303030302c30786530303030642c307835323061633531312c3078376334303330302c30786533303030302c307835323430616639312c3078376330303130302c30783233303430302c307835323430616639362c,
  0x202020203078343030303430302c30783230303030302c307835323430616639382c3078363830303430302c30783936323534302c307835323430616639382c3078376330303130302c30783233303430302c307835323430616661322c3078376330303130302c30783233303430302c307835323430616661342c3078376330303130302c30783233303430302c307835323430623263372c3078343030303030302c,
  0x2020202030783230303030302c307835323430623263372c3078343030303030302c3078313530303030302c307835323430623264322c3078343030303030302c30783230303030302c307835323430623265302c3078343030303030302c30783230303030302c307835323430623566362c3078376330303930302c30783233303430302c307835323461343462662c3078343030303030302c30786530303030332c,
  0x20202020307835323830616639312c3078323830323430302c30783936323436302c307835323830616639322c3078323830323430302c30783936323436302c307835323830616639382c3078323830323430302c30783936323436302c307835323830616639612c3078323830323430302c30783936323436302c307835323830616639632c3078323830323430302c30783936323436302c307835326330623365642c,
  0x202020203078323830323430302c30783936323436302c307835326330623366312c3078376330303130302c30783233303430302c307836303030306330322c3078323830323130302c30783936323436302c307836303030306330322c3078376330303130302c30783233303430302c307836303030306630612c3078323830323130302c30783936323436302c307836303030306630612c3078363830303130302c,
  0x2020202030783936323534302c307836303030306630612c3078376330303130302c30783233303430302c307836303030313331662c3078343030303030302c30783230303030302c307836303030313731612c3078376330303130302c30783233303430302c307836303030313731612c3078376330303130302c30783233303536302c307836303030316232372c3078323830323130302c30783936323436302c,
  0x20202020307836303030316232372c3078343030303030302c30786330303030302c307836303030316232372c3078376330303130302c30783233303430302c307836303030316630622c3078323830323430302c30783936323436302c307836303030323931392c3078376330303130302c30783232303430652c307836303030326130302c3078343030303030302c3078313630303030302c307836303030333030302c,
  0x20202020307832343030303030302c307831343230303030302c307836303030333030302c307832343030303030302c307831346530303030302c307836303030333730302c307832343030303030302c3078343230303030302c307836303030333830302c307832343030303030302c3078313731303030302c307836303030353130322c3078343030303030302c30783230303030302c307836303030363130382c3078376330303130302c,
  0x2020202030783232303430302c307836303030363130382c3078376330303130302c30783235303430302c307836303030363630302c307832343030303032302c30783230303030302c307836303030383330312c3078323830323030302c30783936323436302c307836303030393033632c3078323830363030302c30783936323436302c307836303030393033632c3078343030303030302c30783430303030302c,
  0x20202020307836303030393531392c3078376330303130302c30783232303430302c307836303030393531392c3078376330303130302c30783235303430302c307836303030613030382c3078376330303130302c30783232303430302c307836303030613030382c3078376330303130302c30783235303430302c307836303030633330302c3078343030303030302c307833613730333538302c307836303030633635342c,
  0x202020203078323830323030302c30783936323436302c307836303030633635342c3078343030303031302c30783230303030302c307836303030633635342c3078376330303130302c30783233303430302c307836303030633733662c3078323830323030302c30783936323436302c307836303030633733662c3078323830323130302c30783936323436302c307836303030633733662c3078343030303030302c,
  0x2020202030783230303030302c307836303030633733662c3078363830303130302c30783936323534302c307836303030633733662c3078363830343030302c30783936323534302c307836303030633733662c3078376330303130302c30783233303430302c307836303030633830622c3078376330303130302c30783233303430302c307836303030633934312c3078323830323130302c30783936323436302c,
  0x20202020307836303030633934312c3078323830363030302c30783936323436302c307836303030633934312c3078343030303030302c30783230303030302c307836303030633934312c3078343030303031302c30783230303030302c307836303030633934312c3078363830303030302c3078313332393830302c307836303030633934312c3078363830303130302c30783936323534302c307836303030633934312c,
  0x202020203078376330303130302c30783233303430302c307836303030633934312c3078633030303031302c30783434383030302c307836303030636138322c3078376330303130302c30783233303430302c307836303030636330302c3078343030303030302c3078346530303030302c307836303030643030302c3078343030303030302c30783230303030302c307836303032633330302c3078343030303030302c,
  0x2020202030783130303030302c307836303032633330302c3078343030303030302c30783130303030642c307836303032633330302c3078343030303130302c30783135303430302c307836303032633330302c3078343030303130302c30783135303430642c307836303032633330302c3078343030303130302c307831343135303430302c307836303061333030302c307832343030303030302c307833343230303030302c,
  0x20202020307836303061333030302c307832343030303030302c307833346530303030302c307836303061333730302c307832343030303030302c307833343230303030302c307836303061333830302c307832343030303030302c307833343230303030302c307836303061333830302c307832343030303030302c307862363830303030302c307836303061343330352c3078376330303130302c30786533303430302c307836303061633330302c,
  0x202020203078343030303030302c307833343130303030302c307836303061633430302c3078343030303030302c307831346530303030642c307836303061633430302c3078343030303030302c307833346530303030642c307836303061636231342c3078376330303130302c30786533303030302c307836303061636231362c3078376330303130302c30786533306330302c307836303061636330302c3078343030303030302c,
  0x20202020307833346530303030302c307836303061636430302c3078343030303030302c307833343230303030302c307836303061636430302c3078343030303030302c307833346530303030302c307836303061636430302c3078343030303030302c307862363830303030302c307836303061636530302c3078343030303030302c307833346530303030302c307836303061636530302c3078343030303030302c307862363830303030302c,
  0x20202020307836303061636630302c3078343030303030302c307833346530303030302c307836303061636630302c3078343030303030302c307862363830303030302c307836303061643131312c3078376334303330302c30786533303030302c307836303461633462662c3078343030303030302c307833346530303030332c307836313030306130332c3078343030303030302c3078313630303030302c307836313030306330322c,
  0x20202020307838303030303030302c30783231383936302c307836313030313230662c3078343030303030302c30783230303030302c307836313030316131382c3078376330303130302c3078313833303030302c307836313030316430632c3078376330303130302c30783233303430302c307836313030316430632c3078376330303130302c30783235303430302c307836313030363630302c307832343030303032302c,
  0x2020202030783230303030302c307836313030383430372c3078376330303130302c30783232303430302c307836313030383430372c3078376330303130302c30783235303430302c307836313030383730632c3078376330303130302c30783232303430302c307836313030386530302c307832343030303030302c30783230303030302c307836313030386530302c307832343030303030302c30783430303030302c,
  0x20202020307836313030386530302c307832343030303030322c30783330303030302c307836313030393033632c3078376330303130302c30783233303430302c307836313030393531392c3078376330303130302c30783232303430302c307836313030393531392c3078376330303130302c30783235303430302c307836313030393531392c3078376330303530302c30783232303430662c307836313030396237312c,
  0x202020203078323830323130302c30783936323436302c307836313030396237312c3078323830363430302c30783936323436302c307836313030396237312c3078376330303130302c30783233303430302c307836313030613030382c3078323830323130302c30783936323436302c307836313030633330302c3078343030303030302c30783230303030662c307836313030636430302c3078343030303030302c,
  0x2020202030783230303030302c307836313030643230322c3078323830323430302c30783936323436302c307836313030643230322c3078323830323530302c30783936323436302c307836313030643230322c3078376330303130302c30783233303430302c307836313030643330322c3078343030303032302c30783230303030302c307836313030643330322c3078376330303132302c30783233303430352c,
  0x20202020307836313030643437362c3078323830323130302c30783936323436302c307836313030643437362c3078323830323130302c30783936323436312c307836313030643437362c3078323830363430302c30783936323436302c307836313030643437362c3078343030303030302c30783430303030302c307836313030643437362c3078363830303030302c3078313332393830302c307836313030643437362c,
  0x202020203078363830303130302c30783936323534302c307836313030643437362c3078376330303130302c30783233303430302c307836313030643437362c3078633030303031302c30783434383030302c307836313030643537332c3078323830323130302c30783936323436302c307836313030643537332c3078323830363430302c30783936323436302c307836313030643537332c3078363830303130302c,
  0x2020202030783936323534302c307836313030643537332c3078376330303130302c30783233303430302c307836313030643537332c3078376330303930302c30783233303430302c307836313030643537332c3078633030303031302c30783434383030302c307836313030643638642c3078376330303130302c30783233303430302c307836313030643735362c3078376330303130302c30783233303430302c,
  0x20202020307836313030643835632c3078323830323530302c30783936323436302c307836313030643835632c3078363830303130302c30783936323534302c307836313030643835632c3078376330303130302c30783233303430302c307836313030643835632c3078376330303530302c30783233303430302c307836313030643939372c3078323830323130302c30783936323436302c307836313030643939372c,
  0x202020203078343030303030302c30783230303030302c307836313030643939372c3078343030303030302c30783430303030302c307836313030643939372c3078363830303030302c3078313332393830302c307836313030643939372c3078363830303130302c30783936323534302c307836313030643939372c3078363830343430302c30783936323534302c307836313030643939372c3078376330303130302c,
  0x2020202030783233303430302c307836313030643939372c3078376330303130302c30783233303536302c307836313030643939372c3078633030303031302c30783434383030302c307836313030646139382c3078363830303030302c3078313332393830302c307836313030646139382c3078376330303130302c30783233303430302c307836313030646237312c3078343030303030302c30783230303030302c,
  0x20202020307836313030646339392c3078323830323130302c30783936323436302c307836313030646339392c3078323830323430302c30783936323436302c307836313030646339392c3078363830303030302c3078313332393830302c307836313030646339392c3078363830303130302c30783936323534302c307836313030646339392c3078363830343430302c30783936323534302c307836313030646339392c,
  0x202020203078376330303130302c30783233303430302c307836313061343731312c3078376334303330302c30786533303030302c307836313061346631312c3078376330303330302c30786533303030312c307836313061636530302c3078343030303030302c307833346530303030302c307836313430616639362c3078376330303130302c30783233303430302c307836313430616639382c3078376330303130302c,
  0x2020202030783233303430302c307836313830616639332c3078323830323430302c30783936323436302c307836323030326130302c3078343030303030302c3078313630303030302c307836333030323830302c307838303030302c30783931383832302c307836336330306331342c307838303030302c30783931383832302c307837303030303830652c3078376330303130302c30783235303430302c,
  0x20202020307837303030306130332c3078343030303030302c30783230303030302c307837303030306330302c307838303030303030302c30783231383936302c307837303030306630612c3078376330303130302c30783233303430302c307837303030313030342c3078376330303130302c30783233303430302c307837303030313532342c3078323830323130302c30783936323436302c307837303030313532342c,
  0x202020203078376330303130302c30783233303430302c307837303030313631352c3078323830323130302c30783936323436302c307837303030313731612c3078323830323130302c30783936323436302c307837303030313832312c3078363830303030302c3078313332393830302c307837303030323332302c3078376330303130302c30783233303430302c307837303030326130302c3078343030303030302c,
  0x202020203078313530303030302c307837303030326130302c3078343030303030302c3078313630303030302c307837303030333030302c307832343030303030302c30783230303030302c307837303030333030302c307832343030303030302c307831343230303030302c307837303030333830302c307832343030303030302c3078346530303030302c307837303030353230312c3078323830323430302c30783936323436302c,
  0x20202020307837303030353831652c3078376330303130302c30783233303430302c307837303030363130382c3078376330303130302c30783232303430302c307837303030363130382c3078376330303130302c30783235303430302c307837303030366633302c3078376330303130302c30783233303430302c307837303030373330302c307832343030303030302c30783230303030302c307837303030376630652c,
  0x202020203078343030303030302c30783230303030302c307837303030383330312c3078323830323130302c30783936323436302c307837303030383330312c3078323830323430302c30783936323436302c307837303030386530302c307832343030303030302c30783230303030302c307837303030386530302c307832343030303030302c30783430303030302c307837303030386530302c307832343030303030322c,
  0x2020202030783430303030302c307837303030386530302c307832343030303030382c3078313431303030302c307837303030386530302c307832343030303031302c30783430303030302c307837303030386530302c307832633030303031302c30783434383030302c307837303030393531392c3078376330303130302c30783232303430302c307837303030393531392c3078376330303130302c30783233303430302c,
  0x20202020307837303030393531392c3078376330303130302c30783235303430302c307837303030393836352c3078376330303130302c30783233303430302c307837303030393936352c3078343030303031302c30783430303030302c307837303030393936352c3078376330303130302c30783233303430302c307837303030613030382c3078376330303130302c30783232303430302c307837303030613030382c,
  0x202020203078376330303130302c30783235303430302c307837303030613030382c3078376330303530302c30783232303430662c307837303030613530652c3078343030303030302c30783230303030302c307837303030623631632c3078323830323530302c3078313836323436302c307837303030623631632c3078363830303530302c3078313836323430302c307837303030623631632c3078376330303130302c,
  0x202020203078313833303030302c307837303030633330302c3078343030303030302c30783130303030302c307837303030633934312c3078323830363030302c30783936323436302c307837303030636330302c3078343030303030302c3078346530303030302c307837303030636430302c3078343030303030302c30783230303030302c307837303030636430302c3078343030303030302c3078343230303030302c,
  0x20202020307837303030636430302c3078343030303030302c3078346530303030302c307837303030636430302c3078343030303030302c307831343230303030302c307837303030636430302c3078343030303030302c307831346530303030302c307837303030636430302c3078343030303030302c307839363830303030302c307837303030636630302c3078343030303030302c3078346530303030302c307837303030636630302c,
  0x202020203078343030303030302c307831346530303030302c307837303030643230322c3078323830323130302c30783936323436302c307837303030643230322c3078376330303130302c30783233303430302c307837303030643939372c3078376330303130302c30783233303430302c307837303030643939372c3078633030303031302c30783234383030302c307837303030646438362c3078323830323430302c,
  0x2020202030783936323436302c307837303030646438362c3078376330303130302c30783233303430302c307837303030646438362c3078633030303031302c30783434383030302c307837303030646539662c3078343030303030302c30783230303030302c307837303030646539662c3078376330303130302c30783233303430302c307837303030653030312c3078323030302c30783936323436302c,
  0x20202020307837303030653030312c3078323830323430302c30783936323436302c307837303030653138372c3078323830323030302c30783936323436302c307837303030653138372c3078323830323130302c30783936323436302c307837303030653138372c3078343030303030302c30783230303030302c307837303030653138372c3078376330303130302c30783233303430302c307837303030653138372c,
  0x202020203078633030303031302c30783434383030302c307837303030653238382c3078376330303130302c30783233303430302c307837303030653330302c3078343030303030302c30783230303030302c307837303030653438392c3078323830323130302c30783936323436302c307837303030653438392c3078323830323430302c30783936323436302c307837303030653438392c3078363830303130302c,
  0x2020202030783936323534302c307837303030653438392c3078363830303130302c30783936323534312c307837303030653438392c3078363830343430302c30783936323534302c307837303030653438392c3078376330303130302c30783233303430302c307837303030653438392c3078376330303930302c30783233303430302c307837303030653539642c3078323830323130302c30783936323436302c,
  0x20202020307837303030653539642c3078323830323430302c30783936323436302c307837303030653539642c3078343030303030302c30783230303030302c307837303030653539642c3078343030303031302c30783230303030302c307837303030653539642c3078363830303130302c30783936323534302c307837303030653539642c3078363830343430302c30783936323534302c307837303030653539642c,
  0x202020203078376330303130302c30783233303430302c307837303030653539642c3078633030303031302c30783434383030302c307837303030653639312c3078323830323130302c30783936323436302c307837303030653639312c3078323830323430302c30783936323436302c307837303030653639312c3078323830363430302c30783936323436302c307837303030653639312c3078363830303030302c,
  0x202020203078313332393830302c307837303030653639312c3078363830303130302c30783936323534302c307837303030653639312c3078376330303130302c30783233303430302c307837303030653730302c3078343030303430302c30783230303430302c307837303030653730652c3078376330303130302c30783232303430302c307837303030653731392c3078376330303130302c30783232303430302c,
  0x20202020307837303030653731392c3078376330303530302c30783232303430662c307837303030653835332c3078376330303130302c30783233303430302c307837303030653961302c3078323830323430302c30783936323436302c307837303030653961302c3078343030303030302c30783230303030302c307837303030653961302c3078343030303030302c30783530303030302c307837303030653961302c,
  0x202020203078376330303130302c30783233303430302c307837303030656137392c3078323830323430302c30783936323436302c307837303030656137392c3078343030303030302c30783230303030302c307837303030656137392c3078343030303030302c30786630303030302c307837303030656137392c3078343030303031302c30783430303030302c307837303030656137392c3078376330303130302c,
  0x2020202030783233303430302c307837303030656238632c3078323830323430302c30783936323436302c307837303030656238632c3078343030303030302c30783230303030302c307837303030656238632c3078376330303130302c30783233303430302c307837303030656361332c3078323830323130302c30783936323436302c307837303030656361332c3078323830363430302c30783936323436302c,
  0x20202020307837303030656361332c3078343030303030302c30783230303030302c307837303030656361332c3078363830303030302c3078313332393830302c307837303030656361332c3078363830303130302c30783936323534302c307837303030656361332c3078376330303130302c30783233303430302c307837303030656361332c3078633030303031302c30783434383030302c307837303030656439352c,
  0x202020203078363830303030302c3078313332393830302c307837303030656439352c3078376330303130302c30783233303430302c307837303030656439352c3078633030303031302c30783434383030302c307837303030656531632c3078323830323530302c3078313836323436302c307837303030656531632c3078363830303030302c3078313332393830302c307837303030656531632c3078376330303130302c,
  0x202020203078313833303030302c307837303030656531632c3078376330303930302c3078313833303030302c307837303030656638662c3078343030303030302c30783230303030302c307837303030656638662c3078376330303130302c30783233303430302c307837303030663038652c3078343030303030302c30783230303030302c307837303030663038652c3078376330303130302c30783233303430302c,
  0x20202020307837303030663135392c3078323830323130302c30783936323436302c307837303030663135392c3078376330303130302c30783233303430302c307837303030663230302c3078343030303030302c30783230303030302c307837303030663230302c3078343030303030302c3078313230303030302c307837303030663230302c3078343030303030302c3078313731303030302c307837303030663334622c,
  0x202020203078323830323430302c30783936323436302c307837303030663334622c3078343030303030302c30783230303030302c307837303030663334622c3078343030303031302c30783430303030302c307837303030663334622c3078363830303030302c3078313332393830302c307837303030663334622c3078376330303130302c30783233303430302c307837303030663334622c3078376330303930302c,
  0x2020202030783233303430302c307837303030663334622c3078633030303031302c30783434383030302c307837303030663439302c3078343030303030302c30783230303030302c307837303030663439302c3078376330303130302c30783233303430302c307837303030663561352c3078376330303130302c30783233303430302c307837303030663637622c3078343030303030302c30783230303030302c,
  0x20202020307837303030663637622c3078343030303031302c30783230303030302c307837303030663637622c3078376330303130302c30783233303430302c307837303030663861362c3078323830323130302c30783936323436302c307837303030663861362c3078323830323430302c30783936323436302c307837303030663861362c3078323830363430302c30783936323436302c307837303030663861362c,
  0x202020203078343030303030302c30783530303030302c307837303030663861362c3078343030303031302c30786230303030302c307837303030663861362c3078343030303830302c30783230303030302c307837303030663861362c3078363830303130302c30783936323534302c307837303030663861362c3078363830303130302c30783936323534312c307837303030663861362c3078376330303130302c,
  0x2020202030783233303430302c307837303030663861362c3078633030303031302c30783434383030302c307837303030663932312c3078343030303030302c30783230303030302c307837303030666130302c3078343030303030302c30783230303030302c307837303030666239652c3078323830323130302c30783936323436302c307837303030666239652c3078323830323430302c30783936323436302c,
  0x20202020307837303030666239652c3078323830363430302c30783936323436302c307837303030666239652c3078343030303030302c30783230303030302c307837303030666239652c3078363830303030302c3078313332393830302c307837303030666239652c3078363830303130302c30783936323534302c307837303030666239652c3078363830303130302c30783936323534312c307837303030666239652c,
  0x202020203078376330303130302c30783233303430302c307837303030666339322c3078343030303030302c30783230303030302c307837303030666339322c3078363830303030302c3078313332393830302c307837303030666339322c3078376330303130302c30783232303430302c307837303030666339322c3078376330303130302c30783233303430302c307837303030666339322c3078376330303130302c,
  0x2020202030783235303430302c307837303061636430302c3078343030303030302c307833346530303030302c307837303061636430302c3078343030303030302c307862363830303030302c307837303061636530302c3078343030303030302c307833346530303030302c307837303061636630302c3078343030303030302c307833346530303030302c307837303061636630302c3078343030303030302c307862363830303030302c,
  0x20202020307837303530646630312c3078343030303030302c30783230303030302c307837303530663730352c307838303030302c30783931383832302c307837303830616639362c3078323830323430302c30783936323436302c307837303930646630312c3078323830323430302c30783936323436302c307837306430653430332c3078323830323130302c30783936323436302c307837306430653430332c,
  0x202020203078323830323430302c30783936323436302c307837306430653430332c3078363830303130302c30783936323534302c307838303030313230662c3078376330303130302c30783233303430302c307838303030313532342c3078376330303130302c30783233303430302c307838303030313731612c3078376330303130302c30783233303430302c307838303030323030362c3078376330303130302c,
  0x2020202030783232303430302c307838303030323030362c3078376330303130302c30783235303430302c307838303030326130302c3078343030303030302c3078313530303030302c307838303030326430302c3078343030303030302c30783230303030302c307838303030353230382c3078323830323430302c30783936323436302c307838303030356330302c3078343030303030302c30783230303030302c,
  0x20202020307838303030373330302c307832343030303030302c30783230303030302c307838303030393531392c3078376330303130302c30783232303430302c307838303030393531392c3078376330303130302c30783233303430302c307838303030393531392c3078376330303130302c30783235303430302c307838303030393836352c3078376330303130302c30783233303430302c307838303030613030382c,
  0x202020203078323830323130302c30783936323436302c307838303030623330612c3078343030303030302c30783530303030302c307838303030623330612c3078376330303130302c30783233303430302c307838303030636430302c3078343030303030302c3078346530303030302c307838303030643230322c3078323830323530302c30783936323436302c307838303030643230322c3078376330303130302c,
  0x2020202030783233303430302c307838303030643638642c3078343030303030302c30783230303030302c307838303030643939372c3078323830323030302c30783936323436302c307838303030643939372c3078323830323430302c30783936323436302c307838303030643939372c3078343030303030302c30783430303030302c307838303030643939372c3078343030303030302c30783530303030302c,
  0x20202020307838303030643939372c3078376330303130302c30783233303430302c307838303030643939372c3078633030303031302c30783434383030302c307838303030653438392c3078323830323130302c30783936323436302c307838303030653438392c3078376330303130302c30783233303430302c307838303030653731392c3078376330303130302c30783232303430302c307838303030663861362c,
  0x202020203078323830323130302c30783936323436302c307838303030663861362c3078376330303130302c30783233303430302c307838303030663861362c3078633030303031302c30783434383030302c307838303030666461312c3078323830323130302c3078313836323436302c307838303030666461312c3078323830363430302c3078313836323436302c307838303030666461312c3078343030303030302c,
  0x202020203078313830303030302c307838303030666461312c3078363830303030302c3078313332393830302c307838303030666461312c3078363830303130302c3078313836323534302c307838303030666461312c3078376330303130302c3078313833303030302c307838303030666461312c3078633030303031302c30783434383030302c307838303030666539632c3078376330303130302c30783233303430302c,
  0x20202020307838303030666539632c3078376330303130302c30783833303430302c307838303030666539632c3078376330303130302c3078313433303430302c307838303030666630362c3078376330303130302c30783232303430302c307838303031303136352c3078376330303130302c30783233303430302c307838303031303261322c3078343030303030302c30783230303030302c307838303031303261322c,
  0x202020203078376330303130302c30783233303430302c307838303031303361342c3078376330303130302c30783233303430302c307838303031303361342c3078633030303031302c30783434383030302c307838303031303434632c3078343030303030302c30783230303030302c307838303031303434632c3078376330303130302c30783232303430302c307838303031303434632c3078376330303130302c,
  0x2020202030783235303430302c307838303031303637302c3078323830323030302c30783936323436302c307838303031303637302c3078343030303030302c30783230303030302c307838303031303637302c3078343030303031302c30783430303030302c307838303031303637302c3078633030303031302c30783434383030302c307838303061343731312c3078376334303330302c30786533303030302c,
  0x20202020307838303061636430302c3078343030303030302c307833346530303030302c307838303061636430302c3078343030303030302c307837613930323436302c307838303061636530302c3078343030303030302c307833346530303030302c307838303061636630302c3078343030303030302c307833346530303030302c307838303062303031312c3078376334303330302c30786533303030302c307838303062303530302c,
  0x202020203078343030303030302c307833346530303030302c307838303062303530302c3078343030303030302c307862363830303030302c307839303030313631352c3078376330303130302c30783233303430302c307839303030313731612c3078343030303030302c30783230303030302c307839303030313731612c3078376330303130302c30783233303430302c307839303030333030302c307832343030303030302c,
  0x2020202030783230303030302c307839303030376630652c3078343030303030302c30783230303030302c307839303030383330312c3078323830323030302c30783936323436302c307839303030386530302c307832343030303030302c30783430303030302c307839303030393531392c3078376330303130302c30783235303430302c307839303030613136662c3078323830323130302c30783936323436302c,
  0x20202020307839303030643230302c307838303030303030302c30783231383936302c307839303030643230322c3078323830323030302c30783936323436302c307839303030643230322c3078323830323130302c30783936323436302c307839303030643230322c3078376330303130302c30783233303430302c307839303030653539642c3078323830323130302c30783936323436302c307839303031303530302c,
  0x202020203078343030303030302c30786530303030302c307839303031303761372c3078323830323130302c30783936323436302c307839303031303761372c3078323830323430302c30783936323436302c307839303031303761372c3078323830326330302c30783936323436302c307839303031303761372c3078343030303030302c3078313430303030302c307839303031303761372c3078363830303030302c,
  0x202020203078313332393830302c307839303031303761372c3078376330303130302c30783232303430302c307839303031303761372c3078376330303130302c30783235303430302c307839303031303861382c3078323830323130302c30783936323436302c307839303031303861382c3078323830363430302c30783936323436302c307839303031303861382c3078343030303030302c30783230303030302c,
  0x20202020307839303031303861382c3078343030303030302c30783430303030302c307839303031303861382c3078343030303031302c30783430303030302c307839303031303861382c3078363830303030302c3078313332393830302c307839303031303861382c3078363830303130302c30783936323534302c307839303031303861382c3078376330303130302c30783233303430302c307839303031303861382c,
  0x202020203078633030303031302c30783434383030302c307839303031303930382c3078376330303130302c30783232303430302c307839303031306133382c3078323830323130302c30783936323436302c307839303031306361392c3078323830323130302c30783936323436302c307839303031306361392c3078343030303030302c30783530303030302c307839303031306361392c3078343030303031302c,
  0x2020202030786230303030302c307839303031306361392c3078363830303130302c30783936323534302c307839303031306361392c3078376330303130302c30783233303430302c307839303031306431622c3078343030303030302c30783530303030302c307839303031306561612c3078323830323130302c30783936323436302c307839303031306561612c3078323830323430302c30783936323436302c,
  0x20202020307839303031306561612c3078323830363430302c30783936323436302c307839303031306561612c3078343030303030302c30783230303030302c307839303031306561612c3078343030303030302c30783430303030302c307839303031306561612c3078343030303031302c30783430303030302c307839303031306561612c3078363830303030302c3078313332393830302c307839303031306561612c,
  0x202020203078363830303130302c30783936323534302c307839303031306561612c3078376330303130302c30783233303430302c307839303031306561612c3078633030303031302c30783434383030302c307839303031306661622c3078376330303130302c30783232303430302c307839303031306661622c3078376330303130302c30783235303430302c307839303032633330302c3078343030303030302c,
  0x2020202030783130303030302c307839303061633430302c3078343030303030302c30786530303030642c307839303061636430302c3078343030303030302c307833346530303030302c307839303061636430302c3078343030303030302c307862363830303030302c307839303061636630302c3078343030303030302c307833346530303030302c307839303062303530302c3078343030303030302c307833346530303030302c,
  0x20202020307839303062303530302c3078343030303030302c307862363830303030302c307839303062306239612c3078376330303930302c3078313233303430302c307839303062313039612c3078376330303330302c30786533303030302c307839303062313139612c3078376330303330302c30786533303030302c307839303430386530362c307832343030303030302c30783430303030302c307861303030313030342c,
  0x202020203078343030303030302c30783230303030302c307861303030313030342c3078376330303130302c30783233303430302c307861303030313230662c3078323830323130302c30783936323436302c307861303030313230662c3078323830323430302c30783936323436302c307861303030313731612c3078323830323130302c30783936323436302c307861303030313731612c3078323830363430302c,
  0x2020202030783936323436302c307861303030326130302c3078343030303030302c3078313630303030302c307861303030333030302c307832343030303030302c30783230303030302c307861303030353831652c3078376330303130302c30783233303430302c307861303030373330302c307832343030303030302c30783230303030302c307861303030383330312c3078323830323430302c30783936323436302c,
  0x20202020307861303030386530302c307832343030303030302c30783430303030302c307861303030636630302c3078343030303030302c3078346530303030302c307861303031303530302c3078343030303030302c30783230303030302c307861303031313461662c3078323830323130302c30783936323436302c307861303031313461662c3078323830323430302c30783936323436302c307861303031313461662c,
  0x202020203078323830363430302c30783936323436302c307861303031313461662c3078363830303030302c3078313332393830302c307861303031313461662c3078376330303130302c30783233303430302c307861303031313461662c3078376330303130302c30783233303536302c307861303031313662302c3078323830323130302c30783936323436302c307861303031313662302c3078323830323830302c,
  0x2020202030783936323436302c307861303031313662302c3078323830363430302c30783936323436302c307861303031313662302c3078343030303030302c30783430303030302c307861303031313662302c3078343030303030302c30783530303030302c307861303031313662302c3078343030303031302c30783430303030302c307861303031313662302c3078363830303130302c30783936323534302c,
  0x20202020307861303031313662302c3078376330303130302c30783233303430302c307861303031313662302c3078376330303130302c30783233303536302c307861303031313662302c3078633030303031302c30783434383030302c307861303031313732322c3078376330303130302c30783233303430302c307861303031313862312c3078323830323030302c30783936323436302c307861303031313862312c,
  0x202020203078323830323130302c30783936323436302c307861303031313862312c3078323830363430302c30783936323436302c307861303031313862312c3078343030303030302c30783230303030302c307861303031313862312c3078343030303030302c30783430303030302c307861303031313862312c3078343030303030302c30783530303030302c307861303031313862312c3078363830303130302c,
  0x2020202030783936323534302c307861303031313862312c3078376330303130302c30783233303430302c307861303031313862312c3078376330303130302c30783233303536302c307861303031313862312c3078633030303031302c30783434383030302c307861303061343030352c3078376330303130302c30786533303430302c307861303061343731312c3078376334303330302c30786533303030302c,
  0x20202020307861303061633430302c3078343030303030302c3078346530303030302c307861303061636231342c3078376330303130302c30786533303030302c307861303061636630302c3078343030303030302c307833346530303030302c307861303062303530302c3078343030303030302c307833346530303030302c307861303062303530302c3078343030303030302c307862363830303030302c307861303062306239362c,
  0x202020203078376330303930302c3078313233303430302c307861303062313231312c3078376334303330302c30786533303030302c307861303062313331342c3078376330303130302c30786533303030302c307861303062313539362c3078376330303330302c30786533303030302c307861303430616661632c3078363830303430302c30783936323534302c307861303830383361642c3078323830323430302c,
  0x2020202030783936323436302c307862303030306130332c3078376330303130302c30783232303430302c307862303030306231332c3078376330303130302c3078323633333830302c307862303030313030342c3078323830323030302c30783936323436302c307862303030313131302c3078343030303030302c30783230303030302c307862303030313532342c3078323830323030302c30783936323436302c,
  0x20202020307862303030313631352c3078343030303030302c30783530303030302c307862303030323531622c3078376330303130302c30783233303430302c307862303030373330302c307832343030303030302c30783230303030302c307862303030383933392c3078343030303030302c30783230303030302c307862303030383933392c3078376330303130302c30783233303430302c307862303030386530302c,
  0x20202020307832343030303030302c30783230303030302c307862303030386530302c307832343030303030302c30783430303030302c307862303030386530302c307832343030303031302c30783430303030302c307862303030393235372c3078323830323030302c30783936323436302c307862303030393235372c3078343030303030302c3078313630303030302c307862303030393531392c3078376330303130302c,
  0x2020202030783232303430302c307862303030393531392c3078376330303130302c30783235303430302c307862303030396130302c3078343030303030302c30783230303030302c307862303030623330612c3078323830323130302c30783936323436302c307862303030623330612c3078376330303130302c30783233303430302c307862303030633137382c307838303030303030302c30783231383936302c,
  0x20202020307862303030633330302c3078343030303030302c3078343230303030302c307862303030643230322c3078323830323030302c30783936323436302c307862303030643437362c3078363830303130302c30783936323534302c307862303030643437362c3078376330303130302c30783233303430302c307862303030653330302c3078343030303030302c3078346530303030302c307862303030666461312c,
  0x202020203078376330303130302c3078313833303030302c307862303031306561612c3078323830323030302c30783936323436302c307862303031313662302c3078376330303130302c30783233303430302c307862303031313930302c3078343030303030302c3078346530303030302c307862303031316162322c3078323830323130302c30783936323436302c307862303031316162322c3078323830323430302c,
  0x2020202030783936323436302c307862303031316162322c3078323830363430302c30783936323436302c307862303031316162322c3078343030303030302c30783230303030302c307862303031316162322c3078363830303130302c30783936323534302c307862303031316162322c3078376330303130302c30783233303430302c307862303031316230632c3078376330303130302c30783233303430302c,
  0x20202020307862303031316362332c3078323830323130302c30783936323436302c307862303031316362332c3078323830363430302c30783936323436302c307862303031316362332c3078363830303030302c3078313332393830302c307862303031316362332c3078363830303130302c30783936323534302c307862303031316362332c3078376330303130302c30783233303430302c307862303031316462362c,
  0x202020203078323830323530302c30783936323436302c307862303031316462362c3078363830303030302c3078313332393830302c307862303031316462362c3078376330303130302c30783233303430302c307862303031316462362c3078376330303530302c30783233303430302c307862303031316530302c3078343030303030302c30783230303030302c307862303031316530302c3078343030303030302c,
  0x202020203078313530303030302c307862303031316662342c3078323830323130302c30783936323436302c307862303031316662342c3078363830303130302c30783936323534302c307862303031316662342c3078376330303130302c30783233303430302c307862303031316662342c3078633030303031302c30783234383030302c307862303031323030302c3078343030303030302c30783230303030302c,
  0x20202020307862303031323162352c3078343030303030302c30783230303030302c307862303031323162352c3078343030303031302c30783430303030302c307862303031323162352c3078376330303130302c30783232303430302c307862303031323162352c3078376330303130302c30783235303430302c307862303031323162352c3078633030303031302c30783434383030302c307862303031323262382c,
  0x202020203078343030303030302c30783230303030302c307862303031323262382c3078376330303130302c30783233303430302c307862303031323362372c3078323830323430302c30783936323436302c307862303031323362372c3078343030303030302c30783230303030302c307862303031323362372c3078376330303130302c30783233303430302c307862303031323362372c3078633030303031302c,
  0x2020202030783234383030302c307862303061343030352c3078376330303130302c30786533303430302c307862303061343731312c3078376334303330302c30786533303030302c307862303061636630302c3078343030303030302c307833346530303030302c307862303062303530302c3078343030303030302c307833346530303030302c307862303062303530302c3078343030303030302c307833636530303030302c,
  0x20202020307862303062303530302c3078343030303030302c307862363830303030302c307862303062313039612c3078376330303330302c30786533303030302c307862303830653437632c3078323830323030302c30783936323436302c307863303030313532342c3078343030303030302c30783530303030302c307863303030316131382c3078323830363430302c3078313836323436302c307863303030316131382c,
  0x202020203078376330303130302c3078313833303030302c307863303030373330302c307832343030303030302c30783230303030302c307863303030386530302c307832343030303031302c30783430303030302c307863303030393531392c3078376330303130302c30783232303430302c307863303030393531392c3078376330303130302c30783235303430302c307863303030633330302c3078343030303030302c,
  0x202020203078343230303030662c307863303030643835632c3078323830323130302c30783936323436302c307863303030643835632c3078363830303130302c30783936323534302c307863303030643835632c3078376330303130302c30783233303430302c307863303030646339392c3078376330303130302c30783233303430302c307863303030653731392c3078376330303130302c30783232303430302c,
  0x20202020307863303031303761372c3078376330303130302c30783233303430302c307863303031306561612c3078376330303130302c30783233303430302c307863303031313662302c3078376330303130302c30783233303536302c307863303031313930302c3078343030303030302c3078343230303030302c307863303031323434372c302c30783831383832302c307863303031323434372c,
  0x20202020302c30786331383832302c307863303031323434372c302c3078313431383832302c307863303031323562392c3078376330303130302c30783233303430302c307863303031323662622c3078323830323130302c30783936323436302c307863303031323662622c3078323830363430302c30783936323436302c307863303031323662622c3078343030303030302c,
  0x2020202030783530303030302c307863303031323662622c3078363830303130302c30783936323534302c307863303031323662622c3078376330303130302c30783233303430302c307863303031323762612c3078323830323430302c30783936323436302c307863303031323762612c3078343030303030302c30783230303030302c307863303031323762612c3078363830303030302c3078313332393830302c,
  0x20202020307863303031323762612c3078376330303130302c30783233303430302c307863303031323762612c3078376330303930302c30783233303430302c307863303031323830302c3078343030303030302c30783230303030302c307863303031326232332c3078343030303030302c30783230303030302c307863303031326232332c3078343030303030302c30783430303030302c307863303031326232332c,
  0x202020203078343030303030302c3078313530303030302c307863303031326362632c3078323830323430302c30783936323436302c307863303031326362632c3078343030303030302c3078313630303030302c307863303031326362632c3078363830303030302c3078313332393830302c307863303031326362632c3078376330303130302c30783233303430302c307863303061636630302c3078343030303030302c,
  0x20202020307833346530303030302c307863303061653330302c3078343030303030302c307833346530303030302c307863303062303530302c3078343030303030302c307833346530303030302c307863303062303530302c3078343030303030302c307862363830303030302c307863303062306230302c3078343030303030302c3078313230303030302c307863303062306230302c3078376330303930302c3078313233303430302c,
  0x20202020307863303062313039612c3078376330303330302c30786533303030302c307863303062323931342c3078376330303130302c3078323533303030302c307863303062323931362c3078376330303130302c3078323533306330302c307863303062326130302c3078343030303030302c307833346530303030302c307863303430616635332c3078376330303130302c30783233303430302c307863306331326237652c,
  0x202020203078343030303030302c30783230303030302c307863313461343462662c3078343030303030302c30786530303030642c307864303030313331662c3078323830326330302c30783936323436302c307864303030313731612c3078376330303130302c30783233303430302c307864303030313832312c3078323830323130302c30783936323436302c307864303030373330302c307832343030303030302c,
  0x2020202030783230303030302c307864303030386530302c307832343030303030302c30783230303030302c307864303030386633612c3078323830363030302c30783936323436302c307864303030393531392c3078376330303130302c30783232303430302c307864303030393531392c3078376330303130302c30783235303430302c307864303030613530302c3078343030303030302c30783230303030302c,
  0x20202020307864303030633330302c3078343030303030302c3078346530303030302c307864303030643230322c3078376330303130302c30783233303430302c307864303030643437362c3078376330303130302c30783233303430302c307864303030643939372c3078323830323130302c30783936323436302c307864303030643939372c3078363830303130302c30783936323534302c307864303030653030312c,
  0x202020203078323830323130302c30783936323436302c307864303030653730302c3078343030303430302c30783230303030302c307864303030653731392c3078376330303130302c30783232303430302c307864303030653731392c3078376330303530302c30783233303430662c307864303030666130302c3078343030303030302c3078346530303030302c307864303031306561612c3078343030303031302c,
  0x2020202030783430303030302c307864303031306561612c3078376330303130302c30783233303430302c307864303031326462642c3078343030303030302c30783230303030302c307864303031326462642c3078376330303130302c30783233303430302c307864303031326662652c3078323830323130302c30783936323436302c307864303031326662652c3078323830323430302c30783936323436302c,
  0x20202020307864303031326662652c3078323830363430302c30783936323436302c307864303031326662652c3078343030303030302c30783430303030302c307864303031326662652c3078363830303030302c3078313332393830302c307864303031326662652c3078363830303130302c30783936323534302c307864303031326662652c3078363830303130302c30783936323534312c307864303031326662652c,
  0x202020203078363830343430302c30783936323534302c307864303031326662652c3078376330303130302c30783233303430302c307864303031326662652c3078376330303130302c30783233303536302c307864303031326662652c3078633030303031302c30783434383030302c307864303031333138332c3078376330303130302c30783233303430302c307864303031333230302c3078343030303030302c,
  0x2020202030783230303030302c307864303031333230302c3078363830303030302c3078313332393830352c307864303031333463302c3078323830323130302c30783936323436302c307864303031333463302c3078343030303030322c30783430303030302c307864303031333463302c3078376330303130302c30783233303430302c307864303061343330352c3078376330303130302c30786533303430302c,
  0x20202020307864303061343631312c3078376334303330302c30786533303030302c307864303061343731312c3078376334303330302c30786533303030302c307864303061356531312c3078376334303330302c30786533303030302c307864303061636630302c3078343030303030302c307833346530303030302c307864303062303530302c3078343030303030302c307833346530303030302c307864303062303530302c,
  0x202020203078343030303030302c307862363830303030302c307864303062306231312c3078363830303530302c30783936323534302c307864303062306262662c3078323830323230302c30786336323436302c307864303062313139612c3078376330303330302c30786533303030302c307864303062326130302c3078343030303030302c307833346530303030302c307864303062326531312c3078376334303330302c,
  0x2020202030786533303030302c307864303062333062662c3078376330303330302c30783233303030302c307864303062333339612c3078376330303330302c3078653330303030]

/-- UnicodeData/CharPropsData.py:3809-3813 the lines. -/
def charText19 : List Nat :=
 [0x5d,
  0x0,
  0x70726f7073566563746f7273436f6c756d6e73203d2033,
  0x0,
  0x736372697074457874656e73696f6e73203d205b]

/-- UnicodeData/CharPropsData.py:3814-3830 the lines. -/
def charText20 : List Nat :=
 [0x202020203078383030652c3078383031392c382c3078383035392c382c322c382c3078383033382c382c362c382c3078383031392c322c307832322c307832352c307862362c,
  0x202020203078383063302c322c307832322c3078383032352c322c307831312c322c307832322c307835342c307837392c307837622c307861372c307862362c3078383062372c322c3078383032322c,
  0x20202020322c307832352c3078383063302c322c307832302c322c3078383062362c342c3078612c3078662c307831302c307831352c307831392c307831612c307831662c307832332c,
  0x20202020307832342c307838392c307839372c3078383039652c342c3078612c3078662c307831302c307831352c307831392c307831612c307831662c307832332c307832342c307838392c3078383039652c,
  0x20202020342c3078612c3078662c307831302c307831352c307831612c307831662c307832312c307832332c307832342c307833612c307838392c307839312c307839392c307839652c307861302c,
  0x20202020307861662c307862322c307862332c3078383062622c342c3078612c3078662c307831302c307831352c307831612c307831662c307832312c307832332c307832342c307833302c307833612c,
  0x20202020307838392c307839312c307839392c307839652c307861302c307861662c307862322c307862332c3078383062622c3078612c307837382c307861302c3078383062322c3078612c307836392c342c,
  0x20202020307833612c3078383037362c342c307836662c307831302c3078383061342c307831302c307837342c3078662c3078383039642c3078662c307837382c307832332c3078383038392c307832332c307837632c,
  0x20202020307831352c3078383062622c307831352c307838302c307831632c307833342c3078383037362c307831632c307838342c3078632c3078383031392c307832612c307832622c307832632c3078383032642c307831622c,
  0x202020203078383035612c3078383030612c342c3078612c307831352c3078383038392c3078612c3078383038392c342c3078383030612c3078612c3078383039372c3078612c307831352c307831612c307831662c,
  0x20202020307832332c3078383032342c3078612c3078383062622c342c3078612c307831352c307831662c307832342c307838392c307839652c3078383062622c3078383030342c382c3078383032322c307831392c,
  0x202020203078383031622c3078612c307831392c3078383038392c352c307831312c307831322c307831342c307831362c3078383032392c352c307831312c307831322c307831342c3078383031362c3078383031312c,
  0x20202020352c3078383031312c307831312c307831342c3078383031362c307831312c3078383031392c3078612c3078662c307831302c307837382c307839312c307839392c307839642c307839652c307861302c,
  0x20202020307861332c3078383062322c3078612c3078662c307831302c307831352c307831612c307837382c307839312c307839392c307839642c307839652c307861302c307861332c307862322c3078383062622c,
  0x202020203078612c3078662c307831302c307831352c307837382c307839312c307839392c307839642c307839652c307861302c307861332c307862322c3078383062622c3078612c307839382c3078612c,
  0x202020203078383032332c3078612c307865662c307831392c307831632c3078383034662c307833372c3078383034652c322c3078383032352c322c307866382c307832662c307833312c3078383035332c307832662c,
  0x202020203078383033312c322c3078383030372c307838392c307837632c307838303837]

/-- UnicodeData/CharPropsData.py:3831-3832 the lines. -/
def charText21 : List Nat :=
 [0x5d,
  0x0]

/-- UnicodeData/CharPropsData.py:1-3832 all lines. -/
def charText : List Nat :=
 charText0 ++ (charText1 ++ (charText2 ++ (charText3 ++ (charText4 ++ (charText5 ++ (charText6 ++ (charText7 ++ (charText8 ++ (charText9 ++ (charText10 ++ (charText11 ++ (charText12 ++ (charText13 ++ (charText14 ++ (charText15 ++ (charText16 ++ (charText17 ++ (charText18 ++ (charText19 ++ (charText20 ++ (charText21)))))))))))))))))))))

/-- UnicodeData/Norm2NFCData.py:1-27 the lines. -/
def nfcText0 : List Nat :=
 [0x2222225c,
  0x4261736564206f6e206e6f726d325f6e66635f646174612e682066726f6d204943552e,
  0x0,
  0x43726561746564206f6e204a756e6520322c2032303230,
  0x0,
  0x40617574686f722045726963204d61646572,
  0x222222,
  0x0,
  0x23,
  0x232056616c756573207573656420746f20636f6e7374727563742074686520435054726965,
  0x23,
  0x6e6f726d325f6e66635f646174615f696e6465784c656e677468203d2031373436,
  0x6e6f726d325f6e66635f646174615f646174614c656e677468203d2037383932,
  0x6e6f726d325f6e66635f646174615f686967685374617274203d2030783266633030,
  0x6e6f726d325f6e66635f646174615f736869667465643132486967685374617274203d2030783330,
  0x6e6f726d325f6e66635f646174615f74797065203d2030,
  0x6e6f726d325f6e66635f646174615f76616c75655769647468203d2030,
  0x0,
  0x2320446f207765207265616c6c79206e6565642074686573652070616464696e67202f2072657365727665642076616c7565733f,
  0x23206e6f726d325f6e66635f646174615f72657365727665643332203d2030,
  0x23206e6f726d325f6e66635f646174615f72657365727665643136203d2030,
  0x0,
  0x6e6f726d325f6e66635f646174615f696e646578334e756c6c4f6666736574203d2030786334,
  0x6e6f726d325f6e66635f646174615f646174614e756c6c4f6666736574203d203078323236,
  0x6e6f726d325f6e66635f646174615f6e756c6c56616c7565203d20307831,
  0x0,
  0x6e6f726d325f6e66635f646174615f696e6465786573203d205b]

/-- UnicodeData/Norm2NFCData.py:28-29 the lines. -/
def nfcText1 : List Nat :=
 [0x20202020307835302c3078346261632c3078383831342c3078383931342c3078383931342c3078383931342c3078383931342c3078383931342c307863302c30783330302c30786165322c3078323965302c3078336336362c3078666330302c3078313238382c3078336239632c,
  0x202020203078336333342c3078336336362c30783330302c30]

/-- UnicodeData/Norm2NFCData.py:30-32 the lines. -/
def nfcText2 : List Nat :=
 [0x5d,
  0x0,
  0x6e6f726d325f6e66635f646174615f74726965496e646578203d205b]

/-- UnicodeData/Norm2NFCData.py:33-142 the lines. -/
def nfcText3 : List Nat :=
 [0x20202020302c307834302c307837622c307862622c307866622c30783133612c30783137612c30783162322c30783166322c30783232362c30783235342c30783232362c30783239342c30783264342c30783331332c30783335332c,
  0x2020202030783339332c30783364322c30783430662c30783434652c30783232362c30783232362c30783438382c30783463382c30783466382c30783533302c30783232362c30783537302c30783539662c30783564652c30783232362c30783566332c,
  0x2020202030783633312c30783635662c30783232362c30783638632c30783663632c30783730392c30783732392c30783736382c30783761372c30783765342c30783830332c30783834302c30783732392c30783837392c30783861372c30783865362c,
  0x2020202030783232362c30783932302c30783933372c30783937372c30783938652c30783963642c30783232362c30786130332c30786132332c30786135652c30786136612c30786161352c30786163642c30786230612c30786234612c30786238342c,
  0x2020202030786239662c30783232362c30786264612c30783232362c30786331612c30786333392c30786336662c30786361632c30783232362c30783232362c30783232362c30783232362c30783232362c30786363662c30783232362c30783232362c,
  0x2020202030783232362c30783232362c30783232362c30783232362c30783232362c30783232362c30783232362c30783232362c30783232362c30783232362c30783232362c30783232362c30786366622c30783232362c30783232362c30786433302c,
  0x2020202030783232362c30783232362c30786434652c30783232362c30786437382c30783232362c30783232362c30783232362c30786462342c30786464342c30786531342c30786535332c30786538652c30786563652c30786630322c30786632652c,
  0x2020202030783830382c30783232362c30783232362c30786636322c30783232362c30783232362c30783232362c30786661322c30786665322c3078313032322c3078313036322c3078313061322c3078313065322c3078313132322c3078313136322c3078313161322c,
  0x202020203078313165322c30783232362c30783232362c3078313231322c3078313234332c30783232362c3078313237332c3078313261362c3078313265332c3078313332322c3078313336322c3078313339382c3078313363362c30783232362c30783232362c30783232362c,
  0x2020202030783232362c30783232362c30783232362c30783232362c30783232362c30783232362c30783232362c30783232362c30783232362c30783232362c30783232362c30783232362c30783232362c30783232362c30783232362c30783232362c,
  0x2020202030783232362c30783232362c30783232362c30783232362c30783232362c30783232362c30783232362c30783232362c30783232362c30783232362c30783232362c3078313366312c30783232362c30783232362c30783232362c30783232362c,
  0x2020202030783232362c30783232362c30783232362c30786362642c30783232362c3078313430652c30783232362c3078313434652c30783232362c30783232362c30783232362c30783232362c30783232362c30783232362c30783232362c30783232362c,
  0x202020203078313438652c3078313463382c3078313530362c3078313534362c30783232362c30783232362c30783232362c30783232362c30783232362c30783232362c30783232362c30783232362c30783232362c30783232362c30783232362c30783232362c,
  0x2020202030783232362c30783232362c30783232362c30783232362c30783232362c30783232362c30783232362c30783232362c30783232362c30783232362c30783232362c30783232362c30783232362c30783232362c30783232362c30783232362c,
  0x2020202030783232362c30783232362c30783232362c30783232362c30783232362c30783232362c30783232362c30783232362c30783232362c30783232362c30783232362c30783232362c30783232362c30783232362c30783232362c30783232362c,
  0x2020202030783232362c30783232362c30783232362c30783232362c30783232362c30783232362c30783232362c30783232362c30783232362c30783232362c30783232362c30783232362c30783232362c30783232362c30783232362c30783232362c,
  0x2020202030783232362c30783232362c30783232362c30783232362c30783232362c30783232362c30783232362c30783232362c30783232362c30783232362c30783232362c30783232362c30783232362c30783232362c30783232362c30783232362c,
  0x2020202030783232362c30783232362c30783232362c30783232362c30783232362c30783232362c30783232362c30783232362c30783232362c30783232362c30783232362c30783232362c30783232362c30783232362c30783232362c30783232362c,
  0x2020202030783232362c30783232362c30783232362c30783232362c30783232362c30783232362c30783232362c30783232362c30783232362c30783232362c30783232362c30783232362c30783232362c30783232362c30783232362c30783232362c,
  0x2020202030783232362c30783232362c30783232362c30783232362c30783232362c30783232362c30783232362c30783232362c30783232362c30783232362c30783232362c30783232362c30783232362c30783232362c30783232362c30783232362c,
  0x2020202030783232362c30783232362c30783232362c30783232362c30783232362c30783232362c30783232362c30783232362c30783232362c30783232362c30783232362c30783232362c30783232362c30783232362c30783232362c30783232362c,
  0x2020202030783232362c30783232362c30783232362c30783232362c30783232362c30783232362c30783232362c30783232362c30783232362c30783232362c30783232362c30783232362c30783232362c30783232362c30783232362c30783232362c,
  0x2020202030783232362c30783232362c30783232362c30783232362c30783232362c30783232362c30783232362c30783232362c30783232362c30783232362c30783232362c30783232362c30783232362c30783232362c30783232362c30783232362c,
  0x2020202030783232362c30783232362c30783232362c30783232362c30783232362c30783232362c30783232362c30783232362c30783232362c30783232362c30783232362c30783232362c30783232362c30783232362c30783232362c30783232362c,
  0x2020202030783232362c30783232362c30783232362c30783232362c30783232362c30783232362c30783232362c30783232362c30783232362c30783232362c30783232362c30783232362c30783232362c30783232362c30783232362c30783232362c,
  0x2020202030783232362c30783232362c30783232362c30783232362c30783232362c30783232362c30783232362c30783232362c30783232362c30783232362c30783232362c30783232362c30783232362c30783232362c30783232362c30783232362c,
  0x2020202030783232362c30783232362c30783232362c30783232362c30783232362c30783232362c30783232362c30783232362c30783232362c30783232362c30783232362c30783232362c30783232362c30783232362c30783232362c30783232362c,
  0x2020202030783232362c30783232362c30783232362c30783232362c30783232362c30783232362c30783232362c30783232362c30783232362c30783232362c30783232362c30783232362c30783232362c30783232362c30783232362c30783232362c,
  0x2020202030783232362c30783232362c30783232362c30783232362c30783232362c30783232362c30783232362c30783232362c30783232362c30783232362c30783232362c30783232362c30783232362c30783232362c30783232362c30783232362c,
  0x2020202030783232362c30783232362c30783232362c30783232362c30783232362c30783232362c30783232362c30783232362c30783232362c30783232362c30783232362c30783232362c30783232362c30783232362c30783232362c30783232362c,
  0x2020202030783232362c30783232362c30783232362c30783232362c30783232362c30783232362c30783232362c30783232362c30783232362c30783232362c30783232362c30783232362c30783232362c30783232362c30783232362c30783232362c,
  0x2020202030783232362c30783232362c30783232362c30783232362c30783232362c30783232362c30783232362c30783232362c30783232362c30783232362c30783232362c30783232362c30783232362c30783232362c30783232362c30783232362c,
  0x2020202030783232362c30783232362c30783232362c30783232362c30783232362c30783232362c30783232362c30783232362c30783232362c30783232362c30783232362c30783232362c30783232362c30783232362c30783232362c30783232362c,
  0x2020202030783232362c30783232362c30783232362c30783232362c30783232362c30783232362c30783232362c30783232362c30783232362c30783232362c30783232362c30783232362c30783232362c30783232362c30783232362c30783232362c,
  0x2020202030783232362c30783232362c30783232362c30783232362c30783232362c30783232362c30783232362c30783232362c30783232362c30783232362c30783232362c30783232362c30783232362c30783232362c30783232362c30783232362c,
  0x2020202030783232362c30783232362c30783232362c30783232362c30783232362c30783232362c30783232362c30783232362c30783232362c30783232362c30783232362c30783232362c30783232362c30783232362c30783232362c30783232362c,
  0x2020202030783232362c30783232362c30783232362c30783232362c30783232362c30783232362c30783232362c30783232362c30783232362c30783232362c30783232362c30783232362c30783232362c30783232362c30783232362c30783232362c,
  0x2020202030783232362c30783232362c30783232362c30783232362c30783232362c30783232362c30783232362c30783232362c30783232362c30783232362c30783232362c30783232362c30783232362c30783232362c30783232362c30783232362c,
  0x2020202030783232362c30783232362c30783232362c30783232362c30783232362c30783232362c30783232362c30783232362c30783232362c30783232362c30783232362c30783232362c30783232362c30783232362c30783232362c30783232362c,
  0x2020202030783232362c30783232362c30783232362c30783232362c30783232362c30783232362c30783232362c30783232362c30783232362c30783232362c30783232362c30783232362c30783232362c30783232362c30783232362c30783232362c,
  0x2020202030783232362c30783232362c30783232362c30783232362c30783232362c30783232362c30783232362c30783232362c30783232362c30783232362c30783232362c30783232362c30783232362c30783232362c30783232362c30783232362c,
  0x2020202030783232362c30783232362c30783232362c30783232362c30783232362c30783232362c30783232362c30783232362c30783232362c3078313538352c3078313563332c3078313565332c30783232362c30783232362c30783232362c30783232362c,
  0x202020203078313631642c30783232362c30783232362c3078313634352c3078313637372c3078313661352c30783830632c3078313662382c30783232362c30783232362c3078313663382c3078313730382c30783232362c30783232362c30783232362c3078313432302c,
  0x202020203078313734382c3078313735302c3078313735382c3078313736302c3078313734632c3078313735342c3078313735632c3078313734382c3078313735302c3078313735382c3078313736302c3078313734632c3078313735342c3078313735632c3078313734382c3078313735302c,
  0x202020203078313735382c3078313736302c3078313734632c3078313735342c3078313735632c3078313734382c3078313735302c3078313735382c3078313736302c3078313734632c3078313735342c3078313735632c3078313734382c3078313735302c3078313735382c3078313736302c,
  0x202020203078313734632c3078313735342c3078313735632c3078313734382c3078313735302c3078313735382c3078313736302c3078313734632c3078313735342c3078313735632c3078313734382c3078313735302c3078313735382c3078313736302c3078313734632c3078313735342c,
  0x202020203078313735632c3078313734382c3078313735302c3078313735382c3078313736302c3078313734632c3078313735342c3078313735632c3078313734382c3078313735302c3078313735382c3078313736302c3078313734632c3078313735342c3078313735632c3078313734382c,
  0x202020203078313735302c3078313735382c3078313736302c3078313734632c3078313735342c3078313735632c3078313734382c3078313735302c3078313735382c3078313736302c3078313734632c3078313735342c3078313735632c3078313734382c3078313735302c3078313735382c,
  0x202020203078313736302c3078313734632c3078313735342c3078313735632c3078313734382c3078313735302c3078313735382c3078313736302c3078313734632c3078313735342c3078313735632c3078313734382c3078313735302c3078313735382c3078313736302c3078313734632c,
  0x202020203078313735342c3078313735632c3078313734382c3078313735302c3078313735382c3078313736302c3078313734632c3078313735342c3078313735632c3078313734382c3078313735302c3078313735382c3078313736302c3078313734632c3078313735342c3078313735632c,
  0x202020203078313734382c3078313735302c3078313735382c3078313736302c3078313734632c3078313735342c3078313735632c3078313734382c3078313735302c3078313735382c3078313736302c3078313734632c3078313735342c3078313735632c3078313734382c3078313735302c,
  0x202020203078313735382c3078313736302c3078313734632c3078313735342c3078313735632c3078313734382c3078313735302c3078313735382c3078313736302c3078313734632c3078313735342c3078313735632c3078313734382c3078313735302c3078313735382c3078313736302c,
  0x202020203078313734632c3078313735342c3078313735632c3078313734382c3078313735302c3078313735382c3078313736302c3078313734632c3078313735342c3078313735632c3078313734382c3078313735302c3078313735382c3078313736302c3078313734632c3078313735342c,
  0x202020203078313735632c3078313734382c3078313735302c3078313735382c3078313736302c3078313734632c3078313735342c3078313735632c3078313734382c3078313735302c3078313735382c3078313736302c3078313734632c3078313735342c3078313739342c30783232362c,
  0x202020203078313764342c3078313830662c30783232362c30783232362c30783232362c30783232362c30783232362c30783232362c30783232362c30783232362c30783232362c30783232362c30783232362c30783232362c30783232362c30783232362c,
  0x2020202030783232362c30783232362c30783232362c30783232362c30783232362c30783232362c30783232362c30783232362c30783232362c30783232362c30783232362c30783232362c30783232362c30783232362c30783232362c30783232362c,
  0x2020202030783232362c30783232362c30783232362c30783232362c30783232362c30783232362c30783232362c30783232362c30783232362c30783232362c30783232362c30783232362c30783232362c30783232362c30783232362c30783232362c,
  0x2020202030783232362c30783232362c30783232362c30783232362c30783232362c30783232362c30783232362c30783232362c30783232362c30783232362c30783232362c30783232362c30783232362c30783232362c30783232362c30783232362c,
  0x2020202030783232362c30783232362c30783232362c30783232362c30783232362c30783232362c30783232362c30783232362c30783232362c30783232362c30783232362c30783232362c30783232362c30783232362c30783232362c30783232362c,
  0x2020202030783232362c30783232362c30783232362c30783232362c30783232362c30783232362c30783232362c30783232362c30783232362c30783232362c30783232362c30783232362c30783232362c30783232362c30783232362c30783232362c,
  0x2020202030783232362c30783232362c30783232362c30783232362c30783232362c30783232362c30783232362c30783232362c30783232362c30783232362c30783232362c30783232362c30783232362c30783232362c30783232362c30783232362c,
  0x2020202030783232362c30783232362c30783232362c30783232362c30783232362c30783232362c30783232362c30783232362c30783232362c30783232362c30783232362c30783232362c30783232362c30783232362c30783232362c30783232362c,
  0x2020202030783232362c30783232362c30783232362c30783232362c3078313834662c3078313838662c3078313863662c3078313930662c3078313934662c3078313938662c3078313963662c3078316130662c3078316133322c3078316137322c30783232362c30783232362c,
  0x2020202030783232362c30783232362c30783232362c30783232362c30783232362c30783232362c30783232362c30783232362c3078316139322c30783232362c30783232362c30783232362c30783232362c30783232362c30783232362c30783232362c,
  0x2020202030783635352c30783636342c30783637632c30783639622c30783662302c30783662302c30783662302c30783662342c30783232362c30783232362c30783232362c30783232362c30783232362c30783232362c30783232362c30783232362c,
  0x2020202030783232362c30783232362c30783232362c30783232362c30783232362c30783232362c30783232362c30783232362c30783232362c30783232362c30783232362c30783232362c30783232362c30783232362c30783232362c30783232362c,
  0x2020202030783232362c30783232362c30783232362c30783232362c30783232362c30783232362c30783232362c30786264612c30783232362c30783232362c30783232362c30783232362c30783232362c30783232362c30783232362c30783232362c,
  0x2020202030783232362c30783232362c30783232362c30783232362c30783232362c30783232362c30783534662c30783232362c30783232362c30783232362c30783232362c30783232362c30783232362c30783232362c30783232362c30783430632c,
  0x2020202030783232362c30783232362c30783232362c30783232362c30783232362c30783232362c30783232362c30783232362c3078316163352c30783232362c30783232362c3078316164352c30783232362c30783232362c30783232362c30783232362c,
  0x2020202030783232362c30783232362c30783232362c30783232362c30783232362c30783232362c30786463362c30783232362c30783232362c30783232362c30783232362c30783232362c30783232362c30783232362c30783232362c30783232362c,
  0x2020202030783232362c30783232362c30783232362c30783232362c30783232362c30783232362c30783232362c30783232362c30783232362c3078316165352c30783232362c30783232362c30783232362c30783232362c30783232362c30783232362c,
  0x2020202030783232362c30783232362c30783232362c30783232362c30783232362c30783232362c30783232362c3078313564362c30783232362c30783232362c30783232362c30783232362c30783232362c30783232362c30783232362c30783232362c,
  0x2020202030783232362c3078316165662c30783534662c30783232362c30783232362c30783232362c30783232362c30783232362c30783232362c30783232362c30783232362c30783232362c30783232362c30783765622c30783232362c30783232362c,
  0x2020202030783962612c30783232362c3078316166662c3078316230632c3078316231382c30783232362c30783232362c30783232362c30783232362c30783431342c30783232362c3078316232332c3078316233332c30783232362c30783232362c30783232362c,
  0x2020202030783765302c30783232362c30783232362c30783232362c30783232362c3078316234332c30783232362c30783232362c30783232362c3078316234652c30783232362c30783232362c30783232362c30783232362c30783232362c30783232362c,
  0x2020202030783232362c30783232362c30783232362c30783232362c3078316235352c30783232362c30783232362c30783232362c30783232362c3078316236302c3078316236662c30783866362c3078316237642c30783431322c30783232362c30783232362c,
  0x2020202030783232362c30783232362c30783232362c30783232362c30783232362c30783232362c3078316238622c30783739382c30783232362c30783232362c30783232362c30783232362c30783232362c3078316239622c3078316261612c30783232362c,
  0x2020202030783232362c30783232362c30783232362c30783232362c30783232362c30783232362c30783232362c30783232362c30783232362c30783232362c30783232362c30783232362c30783864362c3078316262322c3078316263322c30783232362c,
  0x2020202030783232362c30783232362c30783962612c30783232362c30783232362c30783232362c30783232362c30783232362c30783232362c30783232362c3078316263632c30783232362c30783232362c30783232362c30783232362c30783232362c,
  0x2020202030783232362c30783765362c30783232362c30783232362c30783232362c30783232362c30783232362c30783232362c30783232362c30783232362c30783232362c30783232362c30783232362c30783232362c30783232362c3078316263392c,
  0x2020202030783232362c30783232362c30783232362c30783232362c30783232362c30783232362c30783232362c30783232362c30783232362c30783232362c30783232362c30783232362c30783232362c30783232362c30783232362c3078316264632c,
  0x2020202030783765302c30783232362c30783232362c30783232362c30783232362c30783232362c30783232362c30783232362c30783232362c30783232362c30783834642c30783232362c30783232362c30783232362c30783765642c30783765612c,
  0x2020202030783232362c30783232362c30783232362c30783232362c30783765382c30783232362c30783232362c30783232362c30783232362c30783232362c30783232362c30783232362c30783232362c30783232362c30783232362c30783232362c,
  0x2020202030783232362c30783232362c30783232362c30783232362c30783232362c30783232362c30783232362c30783232362c30783232362c30783232362c30783232362c30783962612c30783232362c30783232362c30783232362c30783232362c,
  0x2020202030783232362c30783232362c30783232362c30783232362c30783232362c30783232362c30783232362c30783232362c30783232362c30783232362c30783232362c30783232362c30786264342c30783232362c30783232362c30783232362c,
  0x2020202030783232362c30783765612c30783232362c30783232362c30783232362c30783232362c30783232362c30783232362c30783232362c30783232362c30783232362c30783232362c30783232362c30783232362c30783232362c30783232362c,
  0x2020202030783232362c3078316265632c30783232362c30783232362c30783232362c30786566622c30783232362c30783232362c30783232362c30783232362c30783232362c30783232362c30783232362c30783232362c30783232362c30783232362c,
  0x2020202030783232362c30783232362c30783232362c30783232362c30783232362c30783232362c30783232362c30783232362c30783232362c30783232362c30783232362c30783232362c30783232362c30783232362c30783232362c30783232362c,
  0x2020202030783232362c30783232362c30783232362c30783232362c30783232362c3078316266632c30783232362c30783232362c30783232362c30783232362c30783232362c30783232362c30783232362c30783232362c30783232362c3078316266652c,
  0x2020202030783232362c30783232362c30783232362c30783232362c30783232362c30783232362c30783232362c30783232362c30783232362c30783232362c30783232362c30783232362c30783232362c30783232362c30783232362c30783232362c,
  0x2020202030783232362c30783232362c30783232362c30783232362c30783232362c30783232362c3078316330642c3078316331642c3078316332622c3078316333382c30783232362c3078316334342c3078316335322c3078316336322c30783232362c30783232362c,
  0x2020202030783232362c30783232362c30786365612c30783232362c30783232362c30783232362c30783232362c30783232362c30783232362c30783232362c30783232362c30783232362c30783232362c30783232362c30783232362c30783232362c,
  0x2020202030783232362c30783232362c30783232362c30783232362c30783232362c30783232362c30783232362c30783232362c30783232362c30783232362c30783232362c30783232362c30783232362c30783232362c3078316337322c3078316337612c,
  0x202020203078316338382c30783232362c30783232362c30783232362c30783232362c30783232362c30783232362c30783232362c30783232362c30783232362c30783232362c30783232362c30783232362c30783232362c30783232362c30783232362c,
  0x2020202030783232362c30786566622c30783232362c30783232362c30783232362c30783232362c30783232362c30783232362c30783232362c30783232362c30783232362c30783232362c30783232362c30783232362c30783232362c30783232362c,
  0x2020202030783466632c30783232362c30783232362c30783232362c30783232362c30783232362c30783232362c30783232362c30783232362c30783232362c30783232362c30783232362c30783232362c30783232362c30783232362c30783232362c,
  0x2020202030783232362c30783232362c3078316339382c30783232362c30783232362c30783232362c30783232362c30783232362c30783232362c3078316361342c30783232362c30783232362c30783232362c30783232362c30783232362c30783232362c,
  0x2020202030783232362c30783232362c30783232362c30783232362c30783232362c3078316362342c3078316363342c3078316364342c3078316365342c3078316366342c3078316430342c3078316431342c3078316432342c3078316433342c3078316434342c3078316435342c,
  0x202020203078316436342c3078316437342c3078316438342c3078316439342c3078316461342c3078316462342c3078316463342c3078316464342c3078316465342c3078316466342c3078316530342c3078316531342c3078316532342c3078316533342c3078316534342c3078316535342c,
  0x202020203078316536342c3078316537342c3078316538342c3078316539342c3078316561342c3078316562342c3078316563342c30783232362c30783232362c30783232362c30783232362c30783232362c30783232362c30783232362c30783232362c30783232362c,
  0x2020202030783232362c30783232362c30783232362c30783232362c30783232362c30783232362c30783232362c30783232362c30783232362c30783232362c30783232362c30783232362c30783232362c30783232362c30783232362c30783232362c,
  0x2020202030783232362c30783232362c30783232362c30783232362c30783232362c30783430382c30783432382c307863342c307863342c307863342c30783434382c30783435372c30783436642c30783438392c30783461362c30783463322c,
  0x2020202030783464662c30783466632c30783531622c30783533382c307863342c307863342c307863342c307863342c307863342c307863342c307863342c307863342c307863342c307863342c307863342c307863342c,
  0x20202020307863342c307863342c307863342c307863342c307863342c307863342c307863342c307863342c307863342c30783535322c307863342c30783536362c307863342c307863342c307863342c307863342c,
  0x20202020307863342c307863342c307863342c307863342c307863342c307863342c307863342c307863342c307863342c307863342c307863342c307863342c307863342c307863342c307863342c307863342c,
  0x20202020307863342c307863342c307863342c307863342c307863342c307863342c307863342c307863342c307863342c307863342c30783538362c307863342c307863342c307863342c307863342c307863342c,
  0x20202020307863342c307863342c307863342c30783539312c30783561652c307863342c307863342c307863342c307863342c307863342c307863342c30783563652c30783565322c307863342c307863342c30783566352c,
  0x20202020307863342c307863342c307863342c307863342c307863342c307863342c307863342c307863342c307863342c307863342c307863342c307863342c307863342c307863342c307863342c307863342c,
  0x20202020307863342c307863342c307863342c307863342c307863342c307863342c307863342c307863342c307863342c307863342c307863342c307863342c307863342c307863342c307863342c307863342c,
  0x2020202030783631352c3078363335]

/-- UnicodeData/Norm2NFCData.py:143-145 the lines. -/
def nfcText4 : List Nat :=
 [0x5d,
  0x0,
  0x6e6f726d325f6e66635f646174615f7472696544617461203d205b]

/-- UnicodeData/Norm2NFCData.py:146-401 the lines. -/
def nfcText5 : List Nat :=
 [0x20202020312c312c312c312c312c312c312c312c312c312c312c312c312c312c312c312c,
  0x20202020312c312c312c312c312c312c312c312c312c312c312c312c312c312c312c312c,
  0x20202020312c312c312c312c312c312c312c312c312c312c312c312c312c312c312c312c,
  0x20202020312c312c312c312c312c312c312c312c312c312c312c312c342c382c3078632c312c,
  0x20202020312c307831302c307835302c307835632c307837302c307838382c307863632c307864302c307865632c30783130382c30783134342c30783134382c30783135632c30783137342c30783138302c30783161342c,
  0x2020202030783165342c312c30783165632c30783230632c30783232382c30783234342c30783239302c30783239382c30783262302c30783262382c30783264632c312c312c312c312c312c,
  0x20202020312c30783266342c30783333342c30783334302c30783335342c30783336632c30783362302c30783362342c30783364302c30783366302c30783432382c30783433302c30783434342c30783435632c30783436382c30783438632c,
  0x2020202030783463632c312c30783464342c30783466342c30783531302c30783533302c30783537632c30783538342c30783561302c30783561382c30783564302c312c312c312c312c312c,
  0x20202020312c312c312c312c312c312c312c312c312c312c312c312c312c312c312c312c,
  0x20202020312c312c312c312c312c312c312c312c312c312c312c312c312c312c312c312c,
  0x20202020312c312c312c30783565382c312c312c312c312c312c312c312c312c312c312c312c312c,
  0x20202020312c312c312c312c312c312c312c312c312c312c312c3078313238612c3078313239302c30786165342c3078313239362c30786166612c,
  0x2020202030786230342c30783566342c30786230652c3078313239632c3078313261322c30786231382c3078313261382c3078313261652c3078313262342c3078313262612c30786232652c312c3078313263302c3078313263362c3078313263632c30786233382c,
  0x2020202030786234652c30786236302c312c30783566632c3078313264322c3078313264382c3078313264652c30786236612c3078313265342c312c312c3078313265612c3078313266302c30786238302c3078313266362c30786239362c,
  0x2020202030786261302c30783630302c30786261612c3078313266632c3078313330322c30786262342c3078313330382c3078313330652c3078313331342c3078313331612c30786263612c312c3078313332302c3078313332362c3078313332632c30786264342c,
  0x2020202030786265612c30786266632c312c30783630382c3078313333322c3078313333382c3078313333652c30786330362c3078313334342c312c3078313334612c3078313335302c3078313335362c30786331632c30786333322c3078313335642c,
  0x202020203078313336332c3078313336382c3078313336652c3078313337342c3078313337612c3078313338302c3078313338362c3078313338632c3078313339322c3078313339382c3078313339652c312c312c30786334382c30786335362c3078313361342c,
  0x202020203078313361612c3078313362302c3078313362362c3078313362642c3078313363332c3078313363382c3078313363652c3078313364342c3078313364612c3078313365302c3078313365362c3078313365632c3078313366322c3078313366392c3078313366662c3078313430342c,
  0x202020203078313430612c312c312c3078313431302c3078313431362c3078313431632c3078313432322c3078313432382c3078313432652c3078313433352c3078313433622c3078313434302c312c312c312c3078313434372c,
  0x202020203078313434642c3078313435332c3078313435392c312c3078313435652c3078313436342c3078313436622c3078313437312c3078313437362c3078313437632c312c312c312c3078313438322c3078313438382c3078313438662c,
  0x202020203078313439352c3078313439612c3078313461302c312c312c312c30786336342c30786337322c3078313461362c3078313461632c3078313462322c3078313462382c312c312c3078313462652c3078313463342c,
  0x202020203078313463622c3078313464312c3078313464362c3078313464632c30786338302c30786338612c3078313465322c3078313465382c3078313465662c3078313466352c30786339342c30786339652c3078313466622c3078313530312c3078313530362c3078313530632c,
  0x20202020312c312c30786361382c30786362322c30786362632c30786363362c3078313531322c3078313531382c3078313531652c3078313532342c3078313532612c3078313533302c3078313533372c3078313533642c3078313534322c3078313534382c,
  0x202020203078313534652c3078313535342c3078313535612c3078313536302c3078313536362c3078313536632c3078313537322c3078313537382c3078313537652c30783630632c312c312c312c312c312c312c,
  0x20202020312c312c312c312c312c312c312c312c312c312c312c312c312c312c312c312c,
  0x20202020312c312c312c312c312c312c312c312c312c312c30786364302c30786365612c312c312c312c312c,
  0x20202020312c312c312c312c312c312c312c312c312c30786430342c30786431652c312c312c312c312c312c,
  0x20202020312c30783631302c312c312c312c312c312c312c312c312c312c312c312c312c312c3078313538342c,
  0x202020203078313538612c3078313539302c3078313539362c3078313539632c3078313561322c3078313561382c3078313561652c3078313562362c3078313563302c3078313563612c3078313564342c3078313564652c3078313565382c3078313566322c3078313566632c312c,
  0x202020203078313630362c3078313631302c3078313631612c3078313632342c3078313632642c3078313633332c312c312c3078313633382c3078313633652c3078313634342c3078313634612c30786433382c30786434322c3078313635332c3078313635642c,
  0x202020203078313636352c3078313636622c3078313637312c312c312c312c3078313637362c3078313637632c312c312c3078313638322c3078313638382c3078313639302c3078313639612c3078313661332c3078313661392c,
  0x202020203078313661662c3078313662352c3078313662612c3078313663302c3078313663362c3078313663632c3078313664322c3078313664382c3078313664652c3078313665342c3078313665612c3078313666302c3078313666362c3078313666632c3078313730322c3078313730382c,
  0x202020203078313730652c3078313731342c3078313731612c3078313732302c3078313732362c3078313732632c3078313733322c3078313733382c3078313733652c3078313734342c3078313734612c3078313735302c3078313735362c3078313735632c312c312c,
  0x202020203078313736322c3078313736382c312c312c312c312c312c312c30786434632c30786435362c30786436302c30786436612c3078313737302c3078313737612c3078313738342c3078313738652c,
  0x2020202030786437342c30786437652c3078313739382c3078313761322c3078313761612c3078313762302c312c312c312c312c312c312c312c312c312c312c,
  0x20202020312c312c312c312c312c312c312c312c312c312c312c312c312c312c312c312c,
  0x20202020312c312c312c312c312c312c312c312c312c312c312c312c312c312c312c312c,
  0x20202020312c312c312c312c312c312c312c312c312c312c312c312c312c312c312c312c,
  0x20202020312c312c312c312c312c312c30783631342c312c312c312c312c312c312c312c312c312c,
  0x20202020312c312c312c312c312c312c312c312c312c312c312c312c312c312c312c312c,
  0x20202020312c312c312c312c312c312c312c312c312c312c312c312c312c312c312c312c,
  0x20202020312c312c312c312c3078666463632c3078666463632c3078666463632c3078666463632c3078666463632c3078666663632c3078666463632c3078666463632c3078666463632c3078666463632c3078666463632c3078666463632c,
  0x202020203078666463632c3078666663632c3078666663632c3078666463632c3078666663632c3078666463632c3078666663632c3078666463632c3078666463632c3078666664302c3078666662382c3078666662382c3078666662382c3078666662382c3078666664302c3078666462302c,
  0x202020203078666662382c3078666662382c3078666662382c3078666662382c3078666662382c3078666639342c3078666639342c3078666462382c3078666462382c3078666462382c3078666462382c3078666439342c3078666439342c3078666662382c3078666662382c3078666662382c,
  0x202020203078666662382c3078666462382c3078666462382c3078666662382c3078666462382c3078666462382c3078666662382c3078666662382c3078666530322c3078666530322c3078666530322c3078666530322c3078666330322c3078666662382c3078666662382c3078666662382c,
  0x202020203078666662382c3078666663632c3078666663632c3078666663632c3078336333362c3078336333632c3078666463632c3078336334322c3078336334382c3078666465302c3078666663632c3078666662382c3078666662382c3078666662382c3078666663632c3078666663632c,
  0x202020203078666663632c3078666662382c3078666662382c312c3078666663632c3078666663632c3078666663632c3078666662382c3078666662382c3078666662382c3078666662382c3078666663632c3078666664302c3078666662382c3078666662382c3078666663632c,
  0x202020203078666664322c3078666664342c3078666664342c3078666664322c3078666664342c3078666664342c3078666664322c3078666663632c3078666663632c3078666663632c3078666663632c3078666663632c3078666663632c3078666663632c3078666663632c3078666663632c,
  0x202020203078666663632c3078666663632c3078666663632c3078666663632c312c312c312c312c3078323965312c312c312c312c312c312c312c312c,
  0x20202020312c312c3078323965352c312c312c312c312c312c3078313762372c3078313762642c3078323965392c3078313763332c3078313763392c3078313763662c312c3078313764352c,
  0x20202020312c3078313764622c3078313765312c3078313765392c30783631382c312c312c312c30783633342c312c30783634342c312c30783635382c312c312c312c,
  0x20202020312c312c30783637342c312c30783638342c312c312c312c30783638382c312c312c312c30783661302c3078313766312c3078313766372c30786438382c,
  0x202020203078313766642c30786439322c3078313830332c3078313830622c30783662342c312c312c312c30783664342c312c30783665342c312c30783666632c312c312c312c,
  0x20202020312c312c30783731632c312c30783732632c312c312c312c30783733342c312c312c312c30783735342c30786439632c30786461652c3078313831332c,
  0x202020203078313831392c30786463302c312c312c312c30783736632c3078313831662c3078313832352c312c312c312c312c312c312c312c312c,
  0x20202020312c312c312c312c312c312c312c312c312c312c312c312c312c312c312c312c,
  0x20202020312c312c312c312c312c312c312c312c312c312c312c312c312c312c312c312c,
  0x20202020312c312c312c3078313832622c3078313833312c312c3078313833372c312c312c30783737342c3078313833642c312c312c312c312c3078313834332c,
  0x202020203078313834392c3078313834662c312c30783737382c312c312c30783738302c312c30783738342c30783739302c30783739382c30783739632c3078313835352c30783761632c312c312c,
  0x20202020312c30783762302c312c312c312c312c30783762342c312c312c312c30783763342c312c312c312c30783763382c312c,
  0x2020202030783763632c312c312c30783764302c312c312c30783764382c312c30783764632c30783765382c30783766302c30783766342c3078313835622c30783830342c312c312c,
  0x20202020312c30783830382c312c312c312c30783830632c312c312c312c30783831632c312c312c312c30783832302c312c30783832342c,
  0x20202020312c312c3078313836312c3078313836372c312c3078313836642c312c312c30783832382c3078313837332c312c312c312c312c3078313837392c3078313837662c,
  0x202020203078313838352c312c312c312c312c312c312c312c312c312c312c312c312c312c312c312c,
  0x20202020312c312c312c312c312c312c30783832632c30783833302c3078313838622c3078313839312c312c312c312c312c312c312c,
  0x20202020312c312c3078666663632c3078666663632c3078666663632c3078666663632c3078666663632c312c312c312c312c312c312c312c312c312c,
  0x20202020312c312c312c312c312c312c312c312c312c312c312c312c312c312c312c312c,
  0x20202020312c312c312c312c312c312c312c312c312c312c312c312c312c312c312c312c,
  0x20202020312c312c312c312c312c312c312c312c312c312c312c312c312c312c312c3078313839372c,
  0x202020203078313839642c312c312c312c312c312c312c312c312c312c312c312c312c312c3078313861332c3078313861392c,
  0x202020203078313861662c3078313862352c312c312c3078313862622c3078313863312c30783833342c30783833382c3078313863372c3078313863642c3078313864332c3078313864392c3078313864662c3078313865352c312c312c,
  0x202020203078313865622c3078313866312c3078313866372c3078313866642c3078313930332c3078313930392c30783833632c30783834302c3078313930662c3078313931352c3078313931622c3078313932312c3078313932372c3078313932642c3078313933332c3078313933392c,
  0x202020203078313933662c3078313934352c3078313934622c3078313935312c312c312c3078313935372c3078313935642c312c312c312c312c312c312c312c312c,
  0x20202020312c312c312c312c312c312c312c312c312c3078666662382c3078666663632c3078666663632c3078666663632c3078666663632c3078666662382c3078666663632c,
  0x202020203078666663632c3078666663632c3078666662632c3078666662382c3078666663632c3078666663632c3078666663632c3078666663632c3078666663632c3078666663632c3078666662382c3078666662382c3078666662382c3078666662382c3078666662382c3078666662382c,
  0x202020203078666663632c3078666663632c3078666662382c3078666663632c3078666663632c3078666662632c3078666663382c3078666663632c3078666531342c3078666531362c3078666531382c3078666531612c3078666531632c3078666531652c3078666532302c3078666532322c,
  0x202020203078666532342c3078666532362c3078666532362c3078666532382c3078666532612c3078666532632c312c3078666532652c312c3078666533302c3078666533322c312c3078666663632c3078666662382c312c3078666532342c,
  0x20202020312c312c312c312c312c312c312c312c312c312c312c312c312c312c312c312c,
  0x20202020312c312c312c312c312c312c312c312c312c312c312c312c312c312c312c312c,
  0x20202020312c312c312c312c312c312c312c312c312c312c312c312c312c312c312c312c,
  0x20202020312c312c312c312c312c312c312c312c3078666663632c3078666663632c3078666663632c3078666663632c3078666663632c3078666663632c3078666663632c3078666663632c,
  0x202020203078666533632c3078666533652c3078666534302c312c312c312c312c312c312c312c3078313936322c3078313936382c3078313936662c3078313937352c3078313937622c30783834342c,
  0x20202020312c312c312c312c312c312c312c312c312c312c312c312c312c312c312c312c,
  0x20202020312c312c312c312c312c312c312c312c30783835302c312c30783835342c3078666533362c3078666533382c3078666533612c3078666533632c3078666533652c,
  0x202020203078666534302c3078666534322c3078666534342c3078666463632c3078666463632c3078666462382c3078666662382c3078666663632c3078666663632c3078666663632c3078666663632c3078666663632c3078666662382c3078666663632c3078666663632c3078666662382c,
  0x20202020312c312c312c312c312c312c312c312c312c312c312c312c312c312c312c312c,
  0x202020203078666534362c312c312c312c312c312c312c312c312c312c312c312c312c312c312c312c,
  0x202020203078313938312c30783835382c3078313938372c312c312c312c312c312c312c312c312c312c312c312c312c312c,
  0x20202020312c312c30783835632c3078313938642c312c30783836302c3078666663632c3078666663632c3078666663632c3078666663632c3078666663632c3078666663632c3078666663632c312c312c3078666663632c,
  0x202020203078666663632c3078666663632c3078666663632c3078666662382c3078666663632c312c312c3078666663632c3078666663632c312c3078666662382c3078666663632c3078666663632c3078666662382c312c312c,
  0x20202020312c312c312c312c312c312c312c312c312c312c312c312c312c312c312c312c,
  0x202020203078666534382c312c312c312c312c312c312c312c312c312c312c312c312c312c312c312c,
  0x20202020312c312c312c312c312c312c312c312c312c312c312c312c312c312c312c3078666663632c,
  0x202020203078666662382c3078666663632c3078666663632c3078666662382c3078666663632c3078666663632c3078666662382c3078666662382c3078666662382c3078666663632c3078666662382c3078666662382c3078666663632c3078666662382c3078666663632c3078666663632c,
  0x202020203078666662382c3078666663632c3078666662382c3078666663632c3078666662382c3078666663632c3078666662382c3078666663632c3078666663632c312c312c312c312c312c312c312c,
  0x20202020312c312c312c312c312c312c312c312c312c312c312c312c312c312c312c312c,
  0x20202020312c312c312c312c312c312c312c312c312c312c312c312c312c312c312c312c,
  0x20202020312c312c312c312c312c312c312c312c312c312c312c312c312c312c3078666663632c3078666663632c,
  0x202020203078666663632c3078666663632c3078666663632c3078666663632c3078666663632c3078666662382c3078666663632c312c312c312c312c312c312c312c312c312c,
  0x202020203078666662382c312c312c312c312c312c312c312c312c312c312c312c312c312c312c312c,
  0x20202020312c312c312c312c312c312c312c3078666663632c3078666663632c3078666663632c3078666663632c312c3078666663632c3078666663632c3078666663632c3078666663632c,
  0x202020203078666663632c3078666663632c3078666663632c3078666663632c3078666663632c312c3078666663632c3078666663632c3078666663632c312c3078666663632c3078666663632c3078666663632c3078666663632c3078666663632c312c,
  0x20202020312c312c312c312c312c312c312c312c312c312c312c312c312c312c312c312c,
  0x20202020312c312c312c312c312c312c312c312c3078666662382c3078666662382c3078666662382c312c312c312c312c312c,
  0x20202020312c312c312c312c312c312c312c312c312c312c312c312c312c312c312c312c,
  0x20202020312c312c312c312c312c312c312c312c312c312c312c312c312c312c312c3078666662382c,
  0x202020203078666663632c3078666663632c3078666663632c3078666663632c3078666663632c3078666663632c3078666663632c3078666663632c3078666663632c3078666663632c3078666663632c3078666663632c3078666663632c3078666663632c312c3078666662382c,
  0x202020203078666663632c3078666663632c3078666662382c3078666663632c3078666663632c3078666662382c3078666663632c3078666663632c3078666663632c3078666662382c3078666662382c3078666662382c3078666533362c3078666533382c3078666533612c3078666663632c,
  0x202020203078666663632c3078666663632c3078666662382c3078666663632c3078666663632c3078666662382c3078666662382c3078666663632c3078666663632c3078666663632c3078666663632c3078666663632c312c312c312c312c,
  0x20202020312c312c312c312c312c312c312c312c312c312c312c312c312c312c312c312c,
  0x20202020312c312c312c312c312c312c312c312c312c312c312c312c312c312c312c312c,
  0x20202020312c312c312c312c30783836342c3078313939332c312c312c312c312c312c312c30783836382c3078313939392c312c30783836632c,
  0x202020203078313939662c312c312c312c312c312c312c312c3078666330652c312c312c312c312c312c312c312c,
  0x20202020312c312c312c312c312c312c3078666531322c312c312c312c3078666663632c3078666662382c3078666663632c3078666663632c312c312c,
  0x20202020312c3078323965632c3078323966322c3078323966382c3078323966652c3078326130342c3078326130612c3078326131302c3078326131362c312c312c312c312c312c312c312c,
  0x20202020312c312c312c312c312c312c312c312c312c312c312c312c312c312c312c312c,
  0x20202020312c312c312c312c312c312c312c312c312c312c312c312c312c312c312c312c,
  0x20202020312c312c312c312c312c312c312c312c312c312c312c312c312c312c312c312c,
  0x20202020312c312c312c312c312c3078666530652c312c3078666330302c312c312c312c312c312c312c312c30783837302c,
  0x20202020312c312c312c3078313961352c3078313961622c3078666531322c312c312c312c312c312c312c312c312c312c3078666330302c,
  0x20202020312c312c312c312c3078326131632c3078326132322c312c3078326132382c312c312c312c312c312c312c312c312c,
  0x20202020312c312c312c312c312c312c312c312c312c312c312c312c312c312c312c312c,
  0x20202020312c312c312c312c312c312c3078666663632c312c312c312c312c312c312c312c312c312c,
  0x20202020312c312c312c312c312c312c312c312c312c312c312c312c312c312c312c312c,
  0x20202020312c312c312c312c312c312c312c312c312c312c312c312c312c312c312c312c,
  0x20202020312c312c312c312c312c312c312c312c312c312c3078326132652c312c312c3078326133342c312c312c,
  0x20202020312c312c312c3078666530652c312c312c312c312c312c312c312c312c312c312c312c312c,
  0x20202020312c3078666531322c312c312c312c312c312c312c312c312c312c312c312c3078326133612c3078326134302c3078326134362c,
  0x20202020312c312c3078326134632c312c312c312c312c312c312c312c312c312c312c312c312c312c,
  0x20202020312c312c312c312c312c312c312c312c312c312c312c312c312c312c312c312c,
  0x20202020312c312c312c312c312c312c312c312c312c312c312c312c312c312c312c312c,
  0x20202020312c312c312c312c312c312c312c312c312c312c312c312c312c312c312c3078666530652c,
  0x20202020312c312c312c312c312c312c312c312c312c312c312c312c312c3078666531322c312c312c,
  0x20202020312c312c312c312c312c312c312c312c312c312c312c312c312c312c312c312c,
  0x20202020312c312c312c312c312c312c312c312c312c312c312c312c312c312c312c312c,
  0x20202020312c312c312c312c312c312c312c312c312c312c312c312c312c312c312c312c,
  0x2020202030783837382c3078313962312c312c312c3078313962372c3078313962642c3078666531322c312c312c312c312c312c312c312c312c3078666330302c,
  0x202020203078666330302c312c312c312c312c3078326135322c3078326135382c312c312c312c312c312c312c312c312c312c,
  0x20202020312c312c312c312c312c312c312c312c312c312c312c312c312c312c312c312c,
  0x20202020312c312c312c312c312c312c312c312c312c30783838342c312c3078313963332c312c312c312c312c,
  0x20202020312c312c312c312c312c312c312c312c312c312c312c312c312c312c312c312c,
  0x20202020312c312c312c312c312c312c312c312c312c312c312c312c312c312c312c312c,
  0x20202020312c312c312c312c312c3078666330302c312c312c312c312c312c312c30783838382c30783839302c312c312c,
  0x202020203078313963392c3078313963662c3078313964352c3078666531322c312c312c312c312c312c312c312c312c312c3078666330302c312c312c,
  0x20202020312c312c312c312c312c312c312c312c312c312c312c312c312c312c312c312c,
  0x20202020312c312c312c312c312c312c312c312c312c312c312c312c312c312c312c312c,
  0x20202020312c312c312c312c312c312c30783839342c312c3078313964622c312c312c312c312c3078666531322c312c312c,
  0x20202020312c312c312c312c312c3078666561382c3078666362362c312c312c312c312c312c312c312c312c312c,
  0x20202020312c312c312c312c312c312c312c312c312c312c312c312c312c312c312c312c,
  0x20202020312c312c312c312c312c312c312c312c312c312c312c312c312c312c312c312c,
  0x20202020312c312c312c312c312c312c312c312c312c312c312c312c312c312c312c312c,
  0x20202020312c312c312c3078666530652c312c312c30783839382c3078313965312c312c3078666330302c312c312c312c30783839632c3078313965372c3078313965642c,
  0x20202020312c30786463612c3078313966352c312c3078666531322c312c312c312c312c312c312c312c3078666330302c3078666330302c312c312c,
  0x20202020312c312c312c312c312c312c312c312c312c312c312c312c312c312c312c312c,
  0x20202020312c312c312c312c312c312c312c312c312c312c312c312c312c312c312c312c,
  0x20202020312c312c312c312c312c312c312c312c312c312c312c312c312c312c312c312c,
  0x20202020312c312c312c312c312c312c312c312c312c3078666531322c3078666531322c312c3078666330302c312c312c312c,
  0x20202020312c312c312c30783861382c30783862302c312c312c3078313966642c3078316130332c3078316130392c3078666531322c312c312c312c312c312c,
  0x20202020312c312c312c312c3078666330302c312c312c312c312c312c312c312c312c312c312c312c,
  0x20202020312c312c312c312c312c312c312c312c312c312c312c312c312c312c312c312c,
  0x20202020312c312c312c312c312c312c312c312c312c312c312c312c312c3078666331322c312c312c,
  0x20202020312c312c3078666330302c312c312c312c312c312c312c312c312c312c30783862342c3078316130662c312c30786464342c,
  0x202020203078316131372c3078316131662c3078666330302c312c312c312c312c312c312c312c312c312c312c312c312c312c,
  0x20202020312c312c312c312c312c312c312c312c312c312c312c312c312c312c312c312c,
  0x20202020312c312c312c312c312c312c312c312c312c312c312c312c312c312c312c312c,
  0x20202020312c312c312c312c312c312c312c312c312c312c312c3078666563652c3078666563652c3078666531322c312c312c,
  0x20202020312c312c312c312c312c312c3078666564362c3078666564362c3078666564362c3078666564362c312c312c312c312c312c312c,
  0x20202020312c312c312c312c312c312c312c312c312c312c312c312c312c312c312c312c,
  0x20202020312c312c312c312c312c312c312c312c312c312c312c312c312c312c312c312c,
  0x20202020312c312c312c312c312c312c312c312c312c312c312c312c312c312c312c312c,
  0x20202020312c312c3078666565632c3078666565632c3078666531322c312c312c312c312c312c312c312c312c3078666566342c3078666566342c3078666566342c,
  0x202020203078666566342c312c312c312c312c312c312c312c312c312c312c312c312c312c312c312c,
  0x20202020312c312c312c312c312c312c312c312c312c312c312c312c312c312c312c312c,
  0x20202020312c312c312c312c312c312c312c312c312c312c312c312c312c312c312c312c,
  0x20202020312c312c312c312c312c3078666662382c3078666662382c312c312c312c312c312c312c312c312c312c,
  0x20202020312c312c312c312c312c312c312c312c312c312c312c312c312c312c312c312c,
  0x20202020312c312c3078666662382c312c3078666662382c312c3078666662302c312c312c312c312c312c312c3078326135662c312c312c,
  0x20202020312c312c312c312c312c312c312c3078326136352c312c312c312c312c3078326136622c312c312c312c,
  0x20202020312c3078326137312c312c312c312c312c3078326137372c312c312c312c312c312c312c312c312c312c,
  0x20202020312c312c312c3078326137642c312c312c312c312c312c312c312c3078666630322c3078666630342c3078336335302c3078666630382c3078336335382c,
  0x202020203078326138322c312c3078326138382c312c3078666630342c3078666630342c3078666630342c3078666630342c312c312c3078666630342c3078336336302c3078666663632c3078666663632c3078666531322c312c,
  0x202020203078666663632c3078666663632c312c312c312c312c312c312c312c312c312c312c312c3078326138662c312c312c,
  0x20202020312c312c312c312c312c312c312c3078326139352c312c312c312c312c3078326139622c312c312c312c,
  0x20202020312c3078326161312c312c312c312c312c3078326161372c312c312c312c312c312c312c312c312c312c,
  0x20202020312c312c312c3078326161642c312c312c312c312c312c312c3078666662382c312c312c312c312c312c,
  0x20202020312c312c312c312c312c312c312c312c312c312c312c312c312c312c312c312c,
  0x20202020312c312c312c312c312c312c312c312c312c312c312c312c312c312c312c312c,
  0x20202020312c312c312c312c312c312c312c312c312c312c312c312c312c312c312c312c,
  0x20202020312c312c312c312c30783863302c3078316132352c312c312c312c312c312c312c312c3078666330302c312c312c,
  0x20202020312c312c312c312c312c312c3078666530652c312c3078666531322c3078666531322c312c312c312c312c312c312c,
  0x20202020312c312c312c312c312c312c312c3078666662382c312c312c312c312c312c312c312c312c,
  0x20202020312c312c312c312c312c312c312c312c312c312c312c312c312c312c312c312c,
  0x20202020312c312c312c312c312c312c312c312c312c312c312c312c312c312c312c312c,
  0x20202020312c312c312c312c312c312c312c312c312c312c322c322c322c322c322c322c,
  0x20202020322c322c322c322c322c322c322c322c322c322c322c322c322c312c312c312c,
  0x20202020312c312c312c312c312c312c312c312c312c312c312c312c312c312c312c312c,
  0x20202020312c312c312c312c312c312c312c312c312c312c312c312c312c312c312c312c,
  0x20202020312c312c312c312c312c312c312c312c312c312c3078666530302c3078666530302c3078666530302c3078666530302c3078666530302c3078666530302c,
  0x202020203078666530302c3078666530302c3078666530302c3078666530302c3078666530302c3078666530302c3078666530302c3078666530302c3078666530302c3078666530302c3078666530302c3078666530302c3078666530302c3078666530302c3078666530302c312c,
  0x20202020312c312c312c312c312c312c312c312c312c312c312c312c312c312c312c312c,
  0x20202020312c312c312c312c312c312c312c312c312c312c312c312c312c312c312c312c,
  0x20202020312c312c312c312c312c312c312c3078666530302c3078666530302c3078666530302c3078666530302c3078666530302c3078666530302c3078666530302c3078666530302c3078666530302c,
  0x202020203078666530302c3078666530302c3078666530302c3078666530302c3078666530302c3078666530302c3078666530302c3078666530302c3078666530302c3078666530302c3078666530302c3078666530302c3078666530302c3078666530302c3078666530302c312c,
  0x20202020312c312c312c312c312c312c312c312c312c312c312c312c312c312c312c312c,
  0x20202020312c312c312c312c312c312c312c312c312c312c312c312c312c312c312c312c,
  0x20202020312c312c312c312c312c312c312c312c312c312c312c312c312c312c312c312c,
  0x20202020312c312c312c312c312c312c312c312c312c312c312c312c3078666663632c3078666663632c3078666663632c312c,
  0x20202020312c312c312c312c312c312c312c312c312c312c312c312c312c312c312c312c,
  0x20202020312c312c312c312c312c312c312c312c312c312c312c312c312c312c312c3078666531322c,
  0x20202020312c312c312c312c312c312c312c312c312c312c312c312c312c312c312c312c,
  0x20202020312c312c312c312c312c312c312c312c312c312c312c312c312c312c312c3078666531322c,
  0x20202020312c312c312c312c312c312c312c312c312c312c312c312c312c312c312c312c,
  0x20202020312c312c3078666531322c312c312c312c312c312c312c312c312c312c312c3078666663632c312c312c,
  0x20202020312c312c312c312c312c312c312c312c312c312c312c312c312c312c312c312c,
  0x20202020312c312c312c312c312c312c312c312c312c312c312c312c312c312c312c312c,
  0x20202020312c312c312c312c312c312c312c3078666663382c312c312c312c312c312c312c312c312c,
  0x20202020312c312c312c312c312c312c312c312c312c312c312c312c312c312c312c312c,
  0x20202020312c312c312c312c312c312c312c312c312c312c312c312c312c312c312c312c,
  0x20202020312c312c312c312c312c312c312c312c312c312c312c312c312c312c312c312c,
  0x20202020312c3078666662632c3078666663632c3078666662382c312c312c312c312c312c312c312c312c312c312c312c312c,
  0x20202020312c312c312c312c312c312c312c312c312c312c312c3078666663632c3078666662382c312c312c312c,
  0x20202020312c312c312c312c312c312c312c312c312c312c312c312c312c312c312c312c,
  0x20202020312c312c312c312c312c312c312c312c312c312c312c312c312c312c312c312c,
  0x20202020312c312c312c312c3078666531322c312c312c312c312c312c312c312c312c312c312c312c,
  0x20202020312c312c312c312c312c312c312c312c312c3078666663632c3078666663632c3078666663632c3078666663632c3078666663632c3078666663632c3078666663632c,
  0x202020203078666663632c312c312c3078666662382c312c312c312c312c312c312c312c312c312c312c312c312c,
  0x20202020312c312c312c312c312c312c312c312c312c312c312c312c312c312c312c312c,
  0x20202020312c312c312c312c312c312c312c312c312c312c312c312c312c312c312c312c,
  0x20202020312c312c312c312c3078666663632c3078666663632c3078666663632c3078666663632c3078666663632c3078666662382c3078666662382c3078666662382c3078666662382c3078666662382c3078666662382c3078666663632c,
  0x202020203078666663632c3078666662382c312c3078666662382c312c312c312c312c312c312c312c312c312c312c312c312c,
  0x20202020312c312c312c312c312c312c312c312c312c312c312c312c312c312c312c312c,
  0x20202020312c312c312c312c312c312c312c312c312c312c312c312c312c312c312c312c,
  0x20202020312c312c312c312c312c312c312c312c312c312c312c312c312c312c312c312c,
  0x20202020312c312c312c30783863342c3078316132622c30783863382c3078316133312c30783863632c3078316133372c30783864302c3078316133642c30783864342c3078316134332c312c312c30783864382c,
  0x202020203078316134392c312c312c312c312c312c312c312c312c312c312c312c312c312c312c312c,
  0x20202020312c312c312c312c312c312c312c312c312c312c312c312c312c312c312c312c,
  0x20202020312c312c3078666530652c3078666330302c312c312c312c312c30783864632c3078316134662c30783865302c3078316135352c30783865342c30783865382c3078316135622c3078316136312c,
  0x2020202030783865632c3078316136372c3078666531322c312c312c312c312c312c312c312c312c312c312c312c312c312c,
  0x20202020312c312c312c312c312c312c312c312c312c312c312c312c312c312c312c312c,
  0x20202020312c312c312c312c312c312c312c312c312c3078666663632c3078666662382c3078666663632c3078666663632c3078666663632c3078666663632c3078666663632c,
  0x202020203078666663632c3078666663632c312c312c312c312c312c312c312c312c312c312c312c312c312c312c,
  0x20202020312c312c312c312c312c312c312c312c312c312c312c312c312c312c312c312c,
  0x20202020312c312c312c312c312c312c312c312c312c312c312c312c3078666531322c3078666531322c312c312c,
  0x20202020312c312c312c312c312c312c312c312c312c312c312c312c312c312c312c312c,
  0x20202020312c312c312c312c312c312c312c312c312c312c312c312c312c312c312c312c,
  0x20202020312c312c312c312c3078666530652c312c312c312c312c312c312c312c312c312c312c312c,
  0x202020203078666531322c3078666531322c312c312c312c312c312c312c312c312c312c312c312c312c312c312c,
  0x20202020312c312c3078666663632c3078666663632c3078666663632c312c3078666530322c3078666662382c3078666662382c3078666662382c3078666662382c3078666662382c3078666663632c3078666663632c3078666662382c3078666662382c,
  0x202020203078666662382c3078666662382c3078666663632c312c3078666530322c3078666530322c3078666530322c3078666530322c3078666530322c3078666530322c3078666530322c312c312c312c312c3078666662382c,
  0x20202020312c312c312c312c312c312c3078666663632c312c312c312c3078666663632c3078666663632c312c312c312c312c,
  0x20202020312c312c3078666663632c3078666663632c3078666662382c3078666663632c3078666663632c3078666663632c3078666663632c3078666663632c3078666663632c3078666663632c3078666662382c3078666663632c3078666663632c3078666664342c,
  0x202020203078666661632c3078666662382c3078666639342c3078666663632c3078666663632c3078666663632c3078666663632c3078666663632c3078666663632c3078666663632c3078666663632c3078666663632c3078666663632c3078666663632c3078666663632c3078666663632c,
  0x202020203078666663632c3078666663632c3078666663632c3078666663632c3078666663632c3078666663632c3078666663632c3078666663632c3078666663632c3078666663632c3078666663632c3078666663632c3078666663632c3078666663632c3078666663632c3078666663632c,
  0x202020203078666663632c3078666663632c3078666663632c3078666663632c3078666663632c3078666663632c3078666663632c3078666663632c3078666664302c3078666663382c3078666663382c3078666662382c312c3078666663632c3078666664322c3078666662382c,
  0x202020203078666663632c3078666662382c3078316136632c3078316137322c3078316137382c3078316137652c3078316138352c3078316138622c3078316139312c3078316139372c3078316139662c3078316161392c3078316162302c3078316162362c3078316162632c3078316163322c,
  0x202020203078316163382c3078316163652c3078316164352c3078316164622c3078316165302c3078316165362c3078316165652c3078316166382c3078316230322c3078316230632c3078316231342c3078316231612c3078316232302c3078316232362c3078316232662c3078316233392c]

/-- UnicodeData/Norm2NFCData.py:402-639 the lines. -/
def nfcText6 : List Nat :=
 [0x202020203078316234312c3078316234372c3078316234632c3078316235322c3078316235382c3078316235652c3078316236342c3078316236612c3078316237302c3078316237362c3078316237642c3078316238332c3078316238382c3078316238652c3078316239342c3078316239612c,
  0x202020203078316261322c3078316261632c3078316262342c3078316262612c3078316263302c3078316263362c3078316263632c3078316264322c30786464652c30786465382c3078316264612c3078316265342c3078316265632c3078316266322c3078316266382c3078316266652c,
  0x202020203078316330342c3078316330612c3078316331302c3078316331362c3078316331642c3078316332332c3078316332382c3078316332652c3078316333342c3078316333612c3078316334302c3078316334362c3078316334632c3078316335322c3078316335612c3078316336342c,
  0x202020203078316336652c3078316337382c3078316338322c3078316338632c3078316339362c3078316361302c3078316361392c3078316361662c3078316362352c3078316362622c3078316363302c3078316363362c30786466322c30786466632c3078316363652c3078316364382c,
  0x202020203078316365302c3078316365362c3078316365632c3078316366322c30786530362c30786531302c3078316366612c3078316430342c3078316430652c3078316431382c3078316432322c3078316432632c3078316433342c3078316433612c3078316434302c3078316434362c,
  0x202020203078316434632c3078316435322c3078316435382c3078316435652c3078316436342c3078316436612c3078316437302c3078316437362c3078316437632c3078316438322c3078316438612c3078316439342c3078316439652c3078316461382c3078316462302c3078316462362c,
  0x202020203078316462642c3078316463332c3078316463382c3078316463652c3078316464342c3078316464612c3078316465302c3078316465362c3078316465632c3078316466322c3078316466392c3078316466662c3078316530352c3078316530622c3078316531312c3078316531372c,
  0x202020203078316531632c3078316532322c3078316532382c3078316532652c3078316533352c3078316533622c3078316534312c3078316534372c3078316534632c3078316535322c3078316535382c3078316535652c312c3078316536352c312c312c,
  0x20202020312c312c30786531612c30786532382c3078316536612c3078316537302c3078316537382c3078316538322c3078316538632c3078316539362c3078316561302c3078316561612c3078316562342c3078316562652c3078316563382c3078316564322c,
  0x202020203078316564632c3078316565362c3078316566302c3078316566612c3078316630342c3078316630652c3078316631382c3078316632322c3078316632632c3078316633362c30786533362c30786534302c3078316633652c3078316634342c3078316634612c3078316635302c,
  0x202020203078316635382c3078316636322c3078316636632c3078316637362c3078316638302c3078316638612c3078316639342c3078316639652c3078316661382c3078316662322c3078316662612c3078316663302c3078316663362c3078316663632c30786534612c30786535342c,
  0x202020203078316664322c3078316664382c3078316665302c3078316665612c3078316666342c3078316666652c3078323030382c3078323031322c3078323031632c3078323032362c3078323033302c3078323033612c3078323034342c3078323034652c3078323035382c3078323036322c,
  0x202020203078323036632c3078323037362c3078323038302c3078323038612c3078323039342c3078323039652c3078323061362c3078323061632c3078323062322c3078323062382c3078323063302c3078323063612c3078323064342c3078323064652c3078323065382c3078323066322c,
  0x202020203078323066632c3078323130362c3078323131302c3078323131612c3078323132322c3078323132382c3078323132662c3078323133352c3078323133612c3078323134302c3078323134362c3078323134632c312c312c312c312c,
  0x20202020312c312c30786535652c30786537342c30786538632c30786539612c30786561382c30786562362c30786563342c30786564322c30786564652c30786566342c30786630632c30786631612c30786632382c30786633362c,
  0x2020202030786634342c30786635322c30786635652c30786636632c3078323135352c3078323135662c3078323136392c3078323137332c312c312c30786637612c30786638382c3078323137642c3078323138372c3078323139312c3078323139622c,
  0x20202020312c312c30786639362c30786661632c30786663342c30786664322c30786665302c30786665652c30786666632c3078313030612c3078313031362c3078313032632c3078313034342c3078313035322c3078313036302c3078313036652c,
  0x202020203078313037632c3078313038612c3078313039362c3078313061382c3078323161352c3078323161662c3078323162392c3078323163332c3078323163642c3078323164372c3078313062612c3078313063632c3078323165312c3078323165622c3078323166352c3078323166662c,
  0x202020203078323230392c3078323231332c3078313064652c3078313065632c3078323231642c3078323232372c3078323233312c3078323233622c312c312c3078313066612c3078313130382c3078323234352c3078323234662c3078323235392c3078323236332c,
  0x20202020312c312c3078313131362c3078313132382c3078323236642c3078323237372c3078323238312c3078323238622c3078323239352c3078323239662c312c3078313133612c312c3078323261392c312c3078323262332c,
  0x20202020312c3078323262642c3078313134632c3078313136322c3078313137612c3078313138382c3078313139362c3078313161342c3078313162322c3078313163302c3078313163632c3078313165322c3078313166612c3078313230382c3078313231362c3078313232342c,
  0x202020203078313233322c3078313234302c3078313234632c3078336239652c3078323263352c3078336261362c3078313235362c3078336261652c3078323263622c3078336262362c3078323264312c3078336262652c3078323264372c3078336263362c3078313236302c3078336263652c,
  0x20202020312c312c3078323264652c3078323265382c3078323266372c3078323330372c3078323331372c3078323332372c3078323333372c3078323334372c3078323335322c3078323335632c3078323336622c3078323337622c3078323338622c3078323339622c,
  0x202020203078323361622c3078323362622c3078323363362c3078323364302c3078323364662c3078323365662c3078323366662c3078323430662c3078323431662c3078323432662c3078323433612c3078323434342c3078323435332c3078323436332c3078323437332c3078323438332c,
  0x202020203078323439332c3078323461332c3078323461652c3078323462382c3078323463372c3078323464372c3078323465372c3078323466372c3078323530372c3078323531372c3078323532322c3078323532632c3078323533622c3078323534622c3078323535622c3078323536622c,
  0x202020203078323537622c3078323538622c3078323539352c3078323539622c3078323561332c3078323561612c3078323562332c312c3078313236612c3078323562642c3078323563352c3078323563622c3078323564312c3078336264362c3078323564362c312c,
  0x202020203078326162322c30783866302c312c3078323564642c3078323565352c3078323565632c3078323566352c312c3078313237342c3078323566662c3078323630372c3078336264652c3078323630642c3078336265362c3078323631322c3078323631392c,
  0x202020203078323631662c3078323632352c3078323632622c3078323633312c3078323633392c3078336266302c312c312c3078323634312c3078323634392c3078323635312c3078323635372c3078323635642c3078336266612c312c3078323636332c,
  0x202020203078323636392c3078323636662c3078323637352c3078323637622c3078323638332c3078336330342c3078323638622c3078323639312c3078323639372c3078323639662c3078323661372c3078323661642c3078323662332c3078336330652c3078323662392c3078323662662c,
  0x202020203078336331362c3078326162372c312c312c3078323663372c3078323663652c3078323664372c312c3078313237652c3078323665312c3078323665392c3078336331652c3078323665662c3078336332362c3078323666342c3078326162622c,
  0x2020202030783866632c312c3078666130392c3078666130392c312c312c312c312c312c312c312c312c312c312c312c312c,
  0x20202020312c312c312c312c312c312c312c312c312c312c312c312c312c312c312c312c,
  0x20202020312c312c312c312c312c312c312c312c312c312c312c312c312c312c312c312c,
  0x20202020312c312c312c312c312c312c312c312c312c312c312c312c312c312c312c312c,
  0x20202020312c312c3078666663632c3078666663632c3078666530322c3078666530322c3078666663632c3078666663632c3078666663632c3078666663632c3078666530322c3078666530322c3078666530322c3078666663632c3078666663632c312c,
  0x20202020312c312c312c3078666663632c312c312c312c3078666530322c3078666530322c3078666663632c3078666662382c3078666663632c3078666530322c3078666530322c3078666662382c3078666662382c,
  0x202020203078666662382c3078666662382c3078666663632c312c312c312c312c312c312c312c312c312c312c312c312c312c,
  0x20202020312c312c312c312c312c312c312c312c312c312c312c312c312c312c312c312c,
  0x20202020312c312c312c312c312c312c312c312c312c3078326162652c312c312c312c3078326163322c3078336332652c312c,
  0x20202020312c312c312c312c312c312c312c312c312c312c312c312c312c312c312c312c,
  0x20202020312c312c312c30783930382c312c30783930632c312c30783931302c312c312c312c312c312c3078323666622c3078323730312c312c,
  0x20202020312c312c312c312c312c312c312c312c312c312c312c312c312c312c312c312c,
  0x20202020312c3078323730372c312c312c312c312c312c312c312c312c312c312c312c312c312c312c,
  0x20202020312c312c312c3078323730642c3078323731332c3078323731392c30783931342c312c30783931382c312c30783931632c312c312c312c312c312c,
  0x20202020312c312c312c312c312c312c312c312c312c312c312c312c312c312c312c312c,
  0x20202020312c312c312c312c312c312c312c312c312c312c312c312c312c312c312c312c,
  0x20202020312c312c312c312c312c312c30783932302c3078323731662c312c312c312c30783932342c3078323732352c312c30783932382c3078323732622c,
  0x20202020312c312c312c312c312c312c312c312c312c312c312c312c312c312c312c312c,
  0x20202020312c312c312c312c312c312c30783932632c3078323733312c30783933302c3078323733372c312c312c312c312c312c312c,
  0x20202020312c312c312c312c312c312c312c312c312c312c312c312c312c312c312c30783933342c,
  0x20202020312c312c312c3078323733642c312c30783933382c3078323734332c30783933632c312c3078323734392c30783934302c3078323734662c312c312c312c30783934342c,
  0x20202020312c312c312c312c312c312c312c312c312c312c312c312c312c312c312c312c,
  0x20202020312c312c3078323735352c30783934382c3078323735622c312c30783934632c30783935302c312c312c312c312c312c312c312c3078323736312c,
  0x202020203078323736372c3078323736642c3078323737332c3078323737392c30783935342c30783935382c3078323737662c3078323738352c30783935632c30783936302c3078323738622c3078323739312c30783936342c30783936382c30783936632c30783937302c,
  0x20202020312c312c3078323739372c3078323739642c30783937342c30783937382c3078323761332c3078323761392c30783937632c30783938302c3078323761662c3078323762352c312c312c312c312c,
  0x20202020312c312c312c30783938342c30783938382c312c312c312c312c312c312c312c312c312c312c312c,
  0x20202020312c312c312c312c30783938632c312c312c312c312c312c30783939302c30783939342c312c30783939382c3078323762622c3078323763312c,
  0x202020203078323763372c3078323763642c312c312c30783939632c30783961302c30783961342c30783961382c312c312c312c312c312c312c312c312c,
  0x20202020312c312c312c312c312c312c312c312c312c312c312c312c312c312c312c312c,
  0x20202020312c312c312c312c312c312c312c312c3078323764332c3078323764392c3078323764662c3078323765352c312c312c312c312c,
  0x20202020312c312c3078323765622c3078323766312c3078323766372c3078323766642c312c312c312c312c312c312c312c312c312c312c,
  0x20202020312c312c312c312c312c312c312c312c312c312c312c312c312c312c312c312c,
  0x20202020312c312c312c312c312c312c312c312c312c312c312c312c312c312c312c3078326163372c,
  0x202020203078326163622c312c312c312c312c312c312c312c312c312c312c312c312c312c312c312c,
  0x20202020312c312c312c312c312c312c312c312c312c312c312c312c312c3078326163662c312c312c,
  0x20202020312c312c312c312c312c312c312c312c312c312c312c312c312c312c312c312c,
  0x20202020312c312c312c312c312c312c312c312c312c312c312c312c312c312c312c312c,
  0x20202020312c312c312c312c312c312c312c312c312c312c312c312c312c312c312c312c,
  0x20202020312c312c312c312c312c312c312c312c312c312c312c312c312c3078666531322c312c312c,
  0x20202020312c312c312c312c312c312c312c312c312c312c312c312c312c312c312c312c,
  0x20202020312c312c312c312c312c312c312c312c312c312c312c312c312c312c3078666663632c3078666663632c,
  0x202020203078666663632c3078666663632c3078666663632c3078666663632c3078666663632c3078666663632c3078666663632c3078666663632c3078666663632c3078666663632c3078666663632c3078666663632c3078666663632c3078666663632c3078666663632c3078666663632c,
  0x202020203078666663632c3078666663632c3078666663632c3078666663632c3078666663632c3078666663632c3078666663632c3078666663632c3078666663632c3078666663632c3078666663632c3078666663632c3078666663632c3078666663632c312c312c,
  0x20202020312c312c312c312c312c312c312c312c312c312c312c312c312c312c312c312c,
  0x20202020312c312c312c312c312c312c312c312c312c312c312c312c312c312c312c312c,
  0x20202020312c312c312c312c312c312c312c312c3078666662342c3078666663382c3078666664302c3078666662632c3078666663302c3078666663302c312c312c,
  0x20202020312c312c312c312c312c312c312c312c312c312c312c312c312c312c30783961632c312c,
  0x20202020312c312c312c30783962302c3078323830332c30783962342c3078323830392c30783962382c3078323830662c30783962632c3078323831352c30783963302c3078323831622c30783963342c3078323832312c30783963382c,
  0x202020203078323832372c30783963632c3078323832642c30783964302c3078323833332c30783964342c3078323833392c30783964382c3078323833662c30783964632c3078323834352c312c30783965302c3078323834622c30783965342c3078323835312c,
  0x2020202030783965382c3078323835372c312c312c312c312c312c30783965632c3078323835642c3078323836332c30783966342c3078323836392c3078323836662c30783966632c3078323837352c3078323837622c,
  0x2020202030786130342c3078323838312c3078323838372c30786130632c3078323838642c3078323839332c312c312c312c312c312c312c312c312c312c312c,
  0x20202020312c312c312c312c312c312c312c312c312c312c3078323839392c312c312c312c312c3078666331302c,
  0x202020203078666331302c312c312c30786131342c3078323839662c312c312c312c312c312c312c312c30786131382c312c312c312c,
  0x20202020312c30786131632c3078323861352c30786132302c3078323861622c30786132342c3078323862312c30786132382c3078323862372c30786132632c3078323862642c30786133302c3078323863332c30786133342c3078323863392c30786133382c,
  0x202020203078323863662c30786133632c3078323864352c30786134302c3078323864622c30786134342c3078323865312c30786134382c3078323865372c312c30786134632c3078323865642c30786135302c3078323866332c30786135342c3078323866392c,
  0x20202020312c312c312c312c312c30786135382c3078323866662c3078323930352c30786136302c3078323930622c3078323931312c30786136382c3078323931372c3078323931642c30786137302c3078323932332c,
  0x202020203078323932392c30786137382c3078323932662c3078323933352c312c312c312c312c312c312c312c312c312c312c312c312c,
  0x20202020312c312c312c312c312c30786138302c30786138342c30786138382c30786138632c312c3078323933622c312c312c3078323934312c3078323934372c3078323934642c,
  0x202020203078323935332c312c312c30786139302c3078323935392c312c312c312c312c312c312c312c312c312c312c312c,
  0x20202020312c312c312c312c312c312c312c312c312c312c312c312c312c312c312c312c,
  0x20202020312c312c312c312c312c312c312c312c312c312c312c312c312c312c312c312c,
  0x20202020312c312c312c312c3078666663632c312c312c312c312c3078666663632c3078666663632c3078666663632c3078666663632c3078666663632c3078666663632c3078666663632c,
  0x202020203078666663632c3078666663632c3078666663632c312c312c312c312c312c312c312c312c312c312c312c312c312c,
  0x20202020312c312c312c312c312c312c312c312c312c312c312c312c312c312c312c312c,
  0x20202020312c3078666663632c3078666663632c312c312c312c312c312c312c312c312c312c312c312c312c312c,
  0x20202020312c312c312c312c312c312c312c312c312c312c312c312c312c312c312c312c,
  0x20202020312c312c312c312c312c312c312c312c312c312c312c312c312c312c312c312c,
  0x20202020312c312c312c3078666663632c3078666663632c312c312c312c312c312c312c312c312c312c312c312c,
  0x20202020312c312c312c3078666531322c312c312c312c312c312c312c312c312c312c312c312c312c,
  0x20202020312c312c312c312c312c312c312c312c312c312c312c312c312c312c312c312c,
  0x20202020312c312c312c312c312c312c312c312c312c3078666531322c312c312c312c312c312c312c,
  0x20202020312c312c312c312c312c312c312c312c312c312c312c312c312c312c312c312c,
  0x20202020312c312c312c312c312c3078666663632c3078666663632c3078666663632c3078666663632c3078666663632c3078666663632c3078666663632c3078666663632c3078666663632c3078666663632c3078666663632c,
  0x202020203078666663632c3078666663632c3078666663632c3078666663632c3078666663632c3078666663632c3078666663632c312c312c312c312c312c312c312c312c312c,
  0x20202020312c312c312c312c312c312c312c312c312c312c312c312c312c312c312c312c,
  0x20202020312c312c312c312c312c312c312c312c312c312c312c312c312c312c312c312c,
  0x20202020312c312c3078666662382c3078666662382c3078666662382c312c312c312c312c312c312c312c312c312c312c312c,
  0x20202020312c312c312c312c312c312c312c312c3078666531322c312c312c312c312c312c312c312c,
  0x20202020312c312c312c312c312c312c312c312c312c312c312c312c312c312c312c312c,
  0x20202020312c312c312c312c312c312c312c312c312c312c312c312c312c312c312c312c,
  0x20202020312c312c312c312c312c312c312c312c312c312c312c312c312c312c312c312c,
  0x20202020312c312c312c312c312c312c312c312c3078666663632c312c3078666663632c3078666663632c3078666662382c312c312c3078666663632c,
  0x202020203078666663632c312c312c312c312c312c3078666663632c3078666663632c312c3078666663632c312c312c312c312c312c312c,
  0x20202020312c312c312c312c312c312c312c312c312c312c312c312c312c312c312c312c,
  0x20202020312c312c312c312c312c312c312c312c312c312c312c312c312c312c312c312c,
  0x20202020312c312c312c312c312c312c312c312c312c312c312c312c312c312c3078666531322c312c,
  0x20202020312c312c312c312c312c312c312c312c30786165322c3078313238392c3078313238392c3078313238392c3078313238392c3078313238392c3078313238392c3078313238392c,
  0x202020203078313238392c3078313238392c3078313238392c3078313238392c3078313238392c3078313238392c3078313238392c3078313238392c3078313238392c3078313238392c3078313238392c3078313238392c3078313238392c3078313238392c3078313238392c3078313238392c,
  0x202020203078313238392c3078313238392c3078313238392c3078313238392c30786165322c3078313238392c3078313238392c3078313238392c3078313238392c3078313238392c3078313238392c3078313238392c3078313238392c3078313238392c3078313238392c3078313238392c,
  0x202020203078313238392c3078313238392c3078313238392c3078313238392c3078313238392c3078313238392c3078313238392c3078313238392c3078313238392c3078313238392c3078313238392c3078313238392c3078313238392c3078313238392c3078313238392c3078313238392c,
  0x2020202030786165322c3078313238392c3078313238392c3078313238392c3078313238392c3078313238392c3078313238392c3078313238392c3078313238392c3078313238392c3078313238392c3078313238392c3078313238392c3078313238392c3078313238392c3078313238392c,
  0x202020203078313238392c3078313238392c3078313238392c3078313238392c3078313238392c3078313238392c3078313238392c3078313238392c3078313238392c3078313238392c3078313238392c3078313238392c30786165322c3078313238392c3078313238392c3078313238392c,
  0x202020203078313238392c3078313238392c3078313238392c3078313238392c3078313238392c3078313238392c3078313238392c3078313238392c3078313238392c3078313238392c3078313238392c3078313238392c3078313238392c3078313238392c3078313238392c3078313238392c,
  0x202020203078313238392c3078313238392c3078313238392c3078313238392c3078313238392c3078313238392c3078313238392c3078313238392c312c312c312c312c312c312c312c312c,
  0x20202020312c312c312c312c312c312c312c312c312c312c312c312c312c312c312c312c,
  0x20202020312c312c312c312c3078336336362c312c3078336336362c3078336336362c3078336336362c3078336336362c3078336336362c3078336336362c312c312c312c312c,
  0x20202020312c312c312c312c312c312c312c312c312c312c312c312c312c312c3078336336362c3078336336362c,
  0x20202020312c312c312c312c312c312c312c312c312c312c312c312c312c312c312c312c,
  0x20202020312c312c312c3078336336362c312c312c312c312c3078336336362c312c312c312c3078336336362c312c3078336336362c312c,
  0x20202020312c312c312c312c312c312c312c312c312c312c312c312c312c312c312c312c,
  0x20202020312c312c312c312c312c312c312c312c312c312c312c312c312c312c312c312c,
  0x20202020312c312c312c312c312c312c312c312c312c312c312c312c312c312c312c312c,
  0x20202020312c312c312c312c312c312c312c312c312c312c312c312c312c3078336239372c312c3078326164352c,
  0x202020203078326164392c3078326164642c3078326165312c3078326165352c3078326165392c3078326165642c3078326166312c3078326166312c3078326166352c3078326166392c3078326166642c3078326230312c3078326230352c3078326230392c3078326230642c3078326231312c,
  0x202020203078326231352c3078326231392c3078326231642c3078326232312c3078326232352c3078326232392c3078326232642c3078326233312c3078326233352c3078326233392c3078326233642c3078326234312c3078326234352c3078326234392c3078326234642c3078326235312c,
  0x202020203078326235352c3078326235392c3078326235642c3078326236312c3078326236352c3078326236392c3078326236642c3078326237312c3078326237352c3078326237392c3078326237642c3078326238312c3078326238352c3078326238392c3078326238642c3078326239312c,
  0x202020203078326239352c3078326239392c3078326239642c3078326261312c3078326261352c3078326261392c3078326261642c3078326262312c3078326262352c3078326262392c3078326262642c3078326263312c3078326263352c3078326263392c3078326263642c3078326264312c,
  0x202020203078326264352c3078326264392c3078326264642c3078326265312c3078326265352c3078326265392c3078326265642c3078326266312c3078326266352c3078326266392c3078326266642c3078326330312c3078326330352c3078326330392c3078326330642c3078326331312c,
  0x202020203078326331352c3078326331392c3078326331642c3078326332312c3078326332352c3078326332392c3078326332642c3078326333312c3078326333352c3078326333392c3078326333642c3078326232312c3078326334312c3078326334352c3078326334392c3078326334642c,
  0x202020203078326335312c3078326335352c3078326335392c3078326335642c3078326336312c3078326336352c3078326336392c3078326336642c3078326337312c3078326337352c3078326337392c3078326337642c3078326338312c3078326338352c3078326338392c3078326338642c,
  0x202020203078326339312c3078326339352c3078326339392c3078326339642c3078326361312c3078326361352c3078326361392c3078326361642c3078326362312c3078326362352c3078326362392c3078326362642c3078326363312c3078326363352c3078326363392c3078326363642c,
  0x202020203078326364312c3078326364352c3078326364392c3078326364642c3078326365312c3078326365352c3078326365392c3078326365642c3078326366312c3078326366352c3078326366392c3078326366642c3078326430312c3078326430352c3078326430392c3078326430642c,
  0x202020203078326431312c3078326431352c3078326431392c3078326431642c3078326432312c3078326432352c3078326432392c3078326432642c3078326433312c3078326433352c3078326433392c3078326433642c3078326434312c3078326434352c3078326434392c3078326434642c,
  0x202020203078326338392c3078326435312c3078326435352c3078326435392c3078326435642c3078326436312c3078326436352c3078326436392c3078326436642c3078326334392c3078326437312c3078326437352c3078326437392c3078326437642c3078326438312c3078326438352c,
  0x202020203078326438392c3078326438642c3078326439312c3078326439352c3078326439392c3078326439642c3078326461312c3078326461352c3078326461392c3078326461642c3078326462312c3078326462352c3078326462392c3078326462642c3078326232312c3078326463312c,
  0x202020203078326463352c3078326463392c3078326463642c3078326464312c3078326464352c3078326464392c3078326464642c3078326465312c3078326465352c3078326465392c3078326465642c3078326466312c3078326466352c3078326466392c3078326466642c3078326530312c,
  0x202020203078326530352c3078326530392c3078326530642c3078326531312c3078326531352c3078326531392c3078326531642c3078326532312c3078326532352c3078326532392c3078326335312c3078326532642c3078326533312c3078326533352c3078326533392c3078326533642c,
  0x202020203078326534312c3078326534352c3078326534392c3078326534642c3078326535312c3078326535352c3078326535392c3078326535642c3078326536312c3078326536352c3078326536392c3078326536642c3078326537312c3078326537352c3078326537392c3078326537642c,
  0x202020203078326538312c3078326538352c3078326538392c3078326538642c3078326539312c3078326539352c3078326539392c3078326539642c3078326561312c3078326561352c3078326561392c3078326561642c3078326562312c3078326562352c3078326562392c3078326562642c,
  0x202020203078326563312c3078326563352c3078326563392c3078326563642c3078326564312c3078326564352c3078326564392c3078326564642c3078326565312c3078326565352c3078326565392c3078326565642c3078326566312c312c312c3078326566352c,
  0x20202020312c3078326566392c312c312c3078326566642c3078326630312c3078326630352c3078326630392c3078326630642c3078326631312c3078326631352c3078326631392c3078326631642c3078326632312c312c3078326632352c,
  0x20202020312c3078326632392c312c312c3078326632642c3078326633312c312c312c312c3078326633352c3078326633392c3078326633642c3078326634312c3078326634352c3078326634392c3078326634642c,
  0x202020203078326635312c3078326635352c3078326635392c3078326635642c3078326636312c3078326636352c3078326636392c3078326636642c3078326637312c3078326637352c3078326637392c3078326637642c3078326638312c3078326638352c3078326638392c3078326638642c,
  0x202020203078326639312c3078326639352c3078326639392c3078326639642c3078326661312c3078326661352c3078326661392c3078326661642c3078326662312c3078326662352c3078326662392c3078326662642c3078326663312c3078326663352c3078326663392c3078326663642c,
  0x202020203078326664312c3078326664352c3078326664392c3078326664642c3078326665312c3078326665352c3078326432352c3078326665392c3078326665642c3078326666312c3078326666352c3078326666392c3078326666642c3078326666642c3078333030312c3078333030352c,
  0x202020203078333030392c3078333030642c3078333031312c3078333031352c3078333031392c3078333031642c3078326632642c3078333032312c3078333032352c3078333032392c3078333032642c3078333033312c3078333033372c312c312c3078333033622c,
  0x202020203078333033662c3078333034332c3078333034372c3078333034622c3078333034662c3078333035332c3078333035372c3078326636352c3078333035622c3078333035662c3078333036332c3078326566352c3078333036372c3078333036622c3078333036662c3078333037332c,
  0x202020203078333037372c3078333037622c3078333037662c3078333038332c3078333038372c3078333038622c3078333038662c3078333039332c3078326638392c3078333039372c3078326638642c3078333039622c3078333039662c3078333061332c3078333061372c3078333061622c,
  0x202020203078326566392c3078326237352c3078333061662c3078333062332c3078333062372c3078326338642c3078326465392c3078333062622c3078333062662c3078326661392c3078333063332c3078326661642c3078333063372c3078333063622c3078333063662c3078326630312c,
  0x202020203078333064332c3078333064372c3078333064622c3078333064662c3078333065332c3078326630352c3078333065372c3078333065622c3078333065662c3078333066332c3078333066372c3078333066622c3078326665352c3078333066662c3078333130332c3078326432352c,
  0x202020203078333130372c3078326666352c3078333130622c3078333130662c3078333131332c3078333131372c3078333131622c3078333030392c3078333131662c3078326632392c3078333132332c3078333030642c3078326334312c3078333132372c3078333031312c3078333132622c,
  0x202020203078333031392c3078333132662c3078333133332c3078333133372c3078333133622c3078333133662c3078333032312c3078326631392c3078333134332c3078333032352c3078333134372c3078333032392c3078333134622c3078326166312c3078333134662c3078333135352c,
  0x202020203078333135622c3078333136312c3078333136352c3078333136392c3078333136642c3078333137332c3078333137392c3078333137662c3078333138332c312c312c312c312c312c312c312c,
  0x20202020312c312c312c312c312c312c312c312c312c312c312c312c312c312c312c312c,
  0x20202020312c312c312c312c312c312c312c312c312c312c312c312c312c312c312c3078333138362c,
  0x202020203078666533342c3078333138632c312c312c312c312c312c312c312c312c312c312c3078333139322c3078333139382c3078333161302c3078333161612c,
  0x202020203078333162322c3078333162382c3078333162652c3078333163342c3078333163612c3078333164302c3078333164362c3078333164632c3078333165322c312c3078333165382c3078333165652c3078333166342c3078333166612c3078333230302c312c,
  0x202020203078333230362c312c3078333230632c3078333231322c312c3078333231382c3078333231652c312c3078333232342c3078333232612c3078333233302c3078333233362c3078333233632c3078333234322c3078333234382c3078333234652c,
  0x202020203078333235342c312c312c312c312c312c312c312c312c312c312c312c312c312c312c312c,
  0x20202020312c312c312c312c312c312c312c312c312c312c312c312c312c312c312c312c,
  0x20202020312c312c312c312c312c312c312c312c312c312c312c312c312c312c312c312c,
  0x20202020312c312c3078666663632c3078666663632c3078666663632c3078666663632c3078666663632c3078666663632c3078666663632c3078666662382c3078666662382c3078666662382c3078666662382c3078666662382c3078666662382c3078666662382c,
  0x202020203078666663632c3078666663632c312c312c312c312c312c312c312c312c312c312c312c312c312c312c,
  0x20202020312c312c3078666662382c312c3078666663632c312c312c312c312c312c312c312c312c3078666663632c3078666530322c3078666662382c,
  0x20202020312c312c312c312c3078666531322c312c312c312c312c3078666663632c3078666663632c3078666663632c3078666663632c312c312c312c,
  0x20202020312c312c312c312c312c3078666662382c3078666662382c3078666663632c3078666663632c3078666663632c3078666662382c3078666663632c3078666662382c3078666662382c3078666662382c312c,
  0x20202020312c312c312c312c312c312c312c312c30786139342c3078323935662c30786139612c3078323936392c312c312c312c312c,
  0x20202020312c30786161302c312c312c312c312c312c3078323937332c312c312c312c312c312c312c312c312c,
  0x20202020312c3078666531322c3078666330652c312c312c312c312c312c312c312c3078666330302c312c312c312c312c312c,
  0x20202020312c3078323937642c3078323938372c312c30786161362c30786161632c3078666531322c3078666531322c312c312c312c312c312c312c312c312c,
  0x20202020312c312c312c3078666531322c312c312c312c312c312c312c312c312c312c3078666530652c312c312c,
  0x20202020312c312c312c3078666531322c3078666530652c312c312c312c312c312c312c312c312c312c3078666530652c3078666531322c,
  0x20202020312c312c312c312c312c312c312c312c312c312c312c3078666530652c3078666530652c312c3078666330302c312c,
  0x20202020312c312c312c312c312c312c30786162322c312c312c312c3078323939312c3078323939622c3078666531322c312c312c312c,
  0x20202020312c312c312c3078666663632c3078666663632c3078666663632c3078666663632c3078666663632c3078666663632c3078666663632c312c312c312c3078666531322c312c312c,
  0x20202020312c3078666530652c312c312c312c312c312c312c312c312c312c3078666330302c312c312c312c312c,
  0x20202020312c312c312c312c30786162652c3078666330302c3078323961352c3078323961662c3078666330302c3078323962392c312c312c3078666531322c3078666530652c312c312c,
  0x20202020312c312c312c312c312c312c312c312c312c312c30786164302c30786164362c3078323963332c3078323963642c312c312c,
  0x20202020312c3078666531322c3078666530652c312c312c312c312c312c312c312c312c312c312c312c312c312c,
  0x20202020312c312c3078666531322c3078666530652c312c312c312c312c312c312c312c312c3078666330302c312c312c312c,
  0x20202020312c30786164632c312c312c3078323964372c312c312c312c312c3078666531322c3078666531322c312c3078666530322c3078666530322c3078666530322c3078666530322c,
  0x202020203078666530322c312c312c312c312c312c312c312c312c312c312c312c3078666530632c3078666530632c312c312c,
  0x20202020312c312c312c312c312c312c312c312c312c312c312c312c3078666530322c312c312c312c,
  0x20202020312c312c312c312c312c312c312c312c312c312c312c3078333235612c3078333236342c3078333237382c3078333239302c3078333261382c,
  0x202020203078333263302c3078333264382c3078666662302c3078666662302c3078666530322c3078666530322c3078666530322c312c312c312c3078666663342c3078666662302c3078666662302c3078666662302c312c312c,
  0x20202020312c312c312c312c312c312c3078666662382c3078666662382c3078666662382c3078666662382c3078666662382c312c312c3078666663632c3078666663632c3078666663632c,
  0x202020203078666663632c3078666663632c3078666662382c3078666662382c312c312c312c312c312c312c312c312c312c312c3078666663632c3078666663632c,
  0x202020203078666663632c3078666663632c312c312c312c312c312c312c312c312c312c312c312c3078333265362c3078333266302c3078333330342c,
  0x202020203078333331632c3078333333342c3078333334632c312c312c312c312c312c312c312c312c312c312c312c312c312c,
  0x20202020312c312c3078666663632c3078666663632c3078666663632c3078666663632c3078666663632c3078666663632c3078666663632c312c3078666663632c3078666663632c3078666663632c3078666663632c3078666663632c3078666663632c,
  0x202020203078666663632c3078666663632c3078666663632c312c312c3078666663632c3078666663632c3078666663632c3078666663632c3078666663632c312c3078666663632c3078666663632c312c3078666663632c3078666663632c,
  0x202020203078666663632c3078666663632c3078666663632c312c312c312c312c312c3078666662382c3078666662382c3078666662382c3078666662382c3078666662382c3078666662382c3078666662382c312c,
  0x20202020312c312c312c312c312c312c312c312c3078666663632c3078666663632c3078666663632c3078666663632c3078666663632c3078666663632c3078666530652c312c,
  0x20202020312c312c312c312c3078333335622c3078333335662c3078333336332c3078333336372c3078333336642c3078326634642c3078333337312c3078333337352c3078333337392c3078333337642c3078326635312c3078333338312c,
  0x202020203078333338352c3078333338392c3078326635352c3078333338662c3078333339332c3078333339372c3078333339622c3078333361312c3078333361352c3078333361392c3078333361642c3078333362332c3078333362372c3078333362622c3078333362662c3078333033662c,
  0x202020203078333363332c3078333363392c3078333363642c3078333364312c3078333364352c3078333364392c3078333364642c3078333365312c3078333365352c3078333035332c3078326635392c3078326635642c3078333035372c3078333365392c3078333365642c3078326335392c,
  0x202020203078333366312c3078326636312c3078333366352c3078333366392c3078333366642c3078333430312c3078333430312c3078333430312c3078333430352c3078333430622c3078333430662c3078333431332c3078333431372c3078333431642c3078333432312c3078333432352c,
  0x202020203078333432392c3078333432642c3078333433312c3078333433352c3078333433392c3078333433642c3078333434312c3078333434352c3078333434392c3078333434642c3078333434642c3078333035662c3078333435312c3078333435352c3078333435392c3078333435642c,
  0x202020203078326636392c3078333436312c3078333436352c3078333436392c3078326562642c3078333436642c3078333437312c3078333437352c3078333437392c3078333437642c3078333438312c3078333438352c3078333438392c3078333438642c3078333439332c3078333439372c,
  0x202020203078333439622c3078333439662c3078333461332c3078333461372c3078333461622c3078333462312c3078333462372c3078333462622c3078333462662c3078333463332c3078333463372c3078333463622c3078333463662c3078333464332c3078333464372c3078333464372c,
  0x202020203078333464622c3078333465312c3078333465352c3078326334392c3078333465392c3078333465642c3078333466332c3078333466372c3078333466622c3078333466662c3078333530332c3078333530372c3078326637642c3078333530622c3078333530662c3078333531332c,
  0x202020203078333531392c3078333531642c3078333532332c3078333532372c3078333532622c3078333532662c3078333533332c3078333533372c3078333533622c3078333533662c3078333534332c3078333534372c3078333534622c3078333534662c3078333535352c3078333535392c,
  0x202020203078333535642c3078333536312c3078326237312c3078333536352c3078333536622c3078333536662c3078333536662c3078333537352c3078333537392c3078333537392c3078333537642c3078333538312c3078333538372c3078333538642c3078333539312c3078333539352c,
  0x202020203078333539392c3078333539642c3078333561312c3078333561352c3078333561392c3078333561642c3078333562312c3078326638312c3078333562352c3078333562622c3078333562662c3078333563332c3078333038662c3078333563332c3078333563372c3078326638392c,
  0x202020203078333563622c3078333563662c3078333564332c3078333564372c3078326638642c3078326230352c3078333564622c3078333564662c3078333565332c3078333565372c3078333565622c3078333565662c3078333566332c3078333566392c3078333566642c3078333630312c,
  0x202020203078333630352c3078333630392c3078333630642c3078333631332c3078333631372c3078333631622c3078333631662c3078333632332c3078333632372c3078333632622c3078333632662c3078333633332c3078326639312c3078333633372c3078333633622c3078333634312c,
  0x202020203078333634352c3078333634392c3078333634642c3078326639392c3078333635312c3078333635352c3078333635392c3078333635642c3078333636312c3078333636352c3078333636392c3078333636642c3078326237352c3078333061662c3078333637312c3078333637352c,
  0x202020203078333637392c3078333637642c3078333638332c3078333638372c3078333638622c3078333638662c3078326639642c3078333639332c3078333639392c3078333639642c3078333661312c3078333136312c3078333661352c3078333661392c3078333661642c3078333662312c,
  0x202020203078333662352c3078333662622c3078333662662c3078333663332c3078333663372c3078333663642c3078333664312c3078333664352c3078333664392c3078326338642c3078333664642c3078333665312c3078333665372c3078333665642c3078333666332c3078333666372c,
  0x202020203078333666642c3078333730312c3078333730352c3078333730392c3078333730642c3078326661312c3078326465392c3078333731312c3078333731352c3078333731392c3078333731642c3078333732332c3078333732372c3078333732622c3078333732662c3078333062662c,
  0x202020203078333733332c3078333733372c3078333733642c3078333734312c3078333734352c3078333734622c3078333735312c3078333735352c3078333063332c3078333735392c3078333735642c3078333736312c3078333736352c3078333736392c3078333736642c3078333737312c,
  0x202020203078333737372c3078333737622c3078333738312c3078333738352c3078333738622c3078333063622c3078333738662c3078333739332c3078333739392c3078333739642c3078333761312c3078333761372c3078333761642c3078333762312c3078333762352c3078333762392c,
  0x202020203078333762642c3078333762642c3078333763312c3078333763352c3078333064332c3078333763392c3078333763642c3078333764312c3078333764352c3078333764392c3078333764662c3078333765332c3078326335352c3078333765392c3078333765662c3078333766332c,
  0x202020203078333766392c3078333766662c3078333830352c3078333830392c3078333065622c3078333830642c3078333831332c3078333831392c3078333831662c3078333832352c3078333832392c3078333832392c3078333065662c3078333136392c3078333832642c3078333833312c,
  0x202020203078333833352c3078333833392c3078333833662c3078326262642c3078333066372c3078333834332c3078333834372c3078326663642c3078333834642c3078333835332c3078326631352c3078333835392c3078333835642c3078326664642c3078333836312c3078333836352c,
  0x202020203078333836392c3078333836662c3078333836662c3078333837352c3078333837392c3078333837642c3078333838332c3078333838372c3078333838622c3078333838662c3078333839352c3078333839392c3078333839642c3078333861312c3078333861352c3078333861392c,
  0x202020203078333861662c3078333862332c3078333862372c3078333862622c3078333862662c3078333863332c3078333863372c3078333863642c3078333864332c3078333864372c3078333864642c3078333865312c3078333865372c3078333865622c3078326666352c3078333865662c,
  0x202020203078333866352c3078333866622c3078333866662c3078333930352c3078333930392c3078333930662c3078333931332c3078333931372c3078333931622c3078333931662c3078333932332c3078333932372c3078333932642c3078333933332c3078333933392c3078333537352c,
  0x202020203078333933662c3078333934332c3078333934372c3078333934622c3078333934662c3078333935332c3078333935372c3078333935622c3078333935662c3078333936332c3078333936372c3078333936622c3078326339642c3078333937312c3078333937352c3078333937392c,
  0x202020203078333937642c3078333938312c3078333938352c3078333030312c3078333938392c3078333938642c3078333939312c3078333939352c3078333939392c3078333939662c3078333961352c3078333961622c3078333961662c3078333962332c3078333962372c3078333962622c,
  0x202020203078333963312c3078333963352c3078333963622c3078333963662c3078333964332c3078333964392c3078333964662c3078333965332c3078326261392c3078333965372c3078333965622c3078333965662c3078333966332c3078333966372c3078333966622c3078333131332c,
  0x202020203078333966662c3078336130332c3078336130372c3078336130622c3078336130662c3078336131332c3078336131372c3078336131622c3078336131662c3078336132332c3078336132392c3078336132642c3078336133312c3078336133352c3078336133392c3078336133642c,
  0x202020203078336134332c3078336134392c3078336134642c3078336135312c3078333132372c3078333132622c3078336135352c3078336135392c3078336135662c3078336136332c3078336136372c3078336136622c3078336136662c3078336137352c3078336137622c3078336137662c,
  0x202020203078336138332c3078336138372c3078336138642c3078333132662c3078336139312c3078336139372c3078336139642c3078336161312c3078336161352c3078336161392c3078336161662c3078336162332c3078336162372c3078336162622c3078336162662c3078336163332c,
  0x202020203078336163372c3078336163622c3078336164312c3078336164352c3078336164392c3078336164642c3078336165332c3078336165372c3078336165622c3078336165662c3078336166332c3078336166392c3078336166662c3078336230332c3078336230372c3078336230622c,
  0x202020203078336231312c3078336231352c3078333134372c3078333134372c3078336231622c3078336231662c3078336232352c3078336232392c3078336232642c3078336233312c3078336233352c3078336233392c3078336233642c3078336234312c3078333134622c3078336234372c,
  0x202020203078336234622c3078336234662c3078336235332c3078336235372c3078336235622c3078336236312c3078336236352c3078336236622c3078336237312c3078336237372c3078336237622c3078336237662c3078336238332c3078336238372c3078336238622c3078336238662c,
  0x202020203078336239332c3078336239372c312c31]

/-- UnicodeData/Norm2NFCData.py:640-642 the lines. -/
def nfcText7 : List Nat :=
 [0x5d,
  0x0,
  0x6e6f726d325f6e66635f646174615f657874726144617461203d205b]

/-- UnicodeData/Norm2NFCData.py:643-898 the lines. -/
def nfcText8 : List Nat :=
 [0x202020203078666666662c3078666666662c3078383637302c3078343464632c3078383637302c3078343463302c3078383637302c3078343464652c30783630302c30783138302c30783630322c30783138322c30783630342c30783138352c30783630362c30783138362c,
  0x2020202030783630382c30783230302c30783630632c30783230352c30783630652c30783434642c30783631302c30783138392c30783631322c3078336434342c30783631342c30783138622c30783631382c30783339612c30783631652c30783430302c,
  0x2020202030783632322c30783430342c30783634362c3078336434312c30783634612c3078336330302c3078383635302c30783230382c30783630652c3078336330342c30783634362c3078336330382c3078383636322c3078336330632c30783630322c30783230632c,
  0x2020202030783630342c30783231302c30783630652c30783231342c30783631382c30783231382c3078383634652c30783138662c30783630652c3078336331342c30783631382c30783231632c30783634362c3078336331382c30783634652c3078336332302c,
  0x2020202030783635612c3078336332342c3078383636322c3078336331632c30783630302c30783139302c30783630322c30783139322c30783630342c30783139352c30783630362c3078336437382c30783630382c30783232352c30783630632c30783232382c,
  0x2020202030783630652c30783232632c30783631302c30783139362c30783631322c3078336437342c30783631382c30783233342c30783631652c30783430382c30783632322c30783430632c30783634362c3078336437312c30783634652c30783435312c,
  0x2020202030783635302c30783233302c30783635612c3078336333302c3078383636302c3078336333342c3078383630652c3078336333632c30783630322c30783365382c30783630342c30783233382c30783630382c3078336334302c30783630632c30783233632c,
  0x2020202030783630652c30783234302c30783631382c30783363632c3078383634652c30783234342c30783630342c30783234382c30783630652c3078336334342c30783631302c3078336334632c30783631382c30783433632c30783634362c3078336334382c,
  0x2020202030783634652c3078336335302c3078383635632c3078336335342c30783630302c30783139382c30783630322c30783139612c30783630342c30783139632c30783630362c30783235302c30783630382c30783235342c30783630632c30783235382c,
  0x2020202030783630652c30783236302c30783631302c30783139662c30783631322c3078336439302c30783631382c30783339652c30783631652c30783431302c30783632322c30783431342c30783634362c3078336439342c30783635302c30783235632c,
  0x202020203078383636302c3078336335382c3078383630342c30783236382c30783630322c3078336336302c30783631382c30783364302c30783634362c3078336336342c30783634652c30783236632c3078383636322c3078336336382c30783630322c30783237322c,
  0x2020202030783631382c30783237612c30783634362c3078336336642c30783634652c30783237362c30783635612c3078336337382c3078383636322c3078336337342c30783630322c3078336337632c30783630652c3078336338302c3078383634362c3078336338342c,
  0x2020202030783630302c30783366302c30783630322c30783238362c30783630362c30783161322c30783630652c3078336338382c30783631382c30783238652c30783634362c3078336338632c30783634652c30783238612c30783635612c3078336339342c,
  0x202020203078383636322c3078336339302c30783630302c30783161342c30783630322c30783161362c30783630342c30783161392c30783630362c30783161622c30783630382c30783239392c30783630632c30783239632c30783630652c30783435642c,
  0x2020202030783631302c30783161642c30783631322c3078336439632c30783631362c30783261302c30783631382c30783361322c30783631652c30783431382c30783632322c30783431632c30783633362c30783334312c30783634362c3078336439392c,
  0x202020203078383635302c30783364352c30783630322c3078336361382c3078383630652c3078336361632c30783630322c30783261382c30783630652c3078336362302c30783631382c30783262302c30783631652c30783432302c30783632322c30783432342c,
  0x2020202030783634362c3078336362352c30783634652c30783261632c3078383636322c3078336362632c30783630322c30783262352c30783630342c30783262382c30783630652c3078336363302c30783631382c30783263312c30783634362c3078336363352c,
  0x2020202030783634632c30783433302c3078383634652c30783262632c30783630652c3078336364342c30783631382c30783263382c30783634362c3078336364382c30783634632c30783433342c30783634652c30783263342c30783635612c3078336365302c,
  0x202020203078383636322c3078336364632c30783630302c30783162322c30783630322c30783162342c30783630342c30783162362c30783630362c30783264312c30783630382c30783264352c30783630632c30783264382c30783631302c30783162392c,
  0x2020202030783631322c3078336463632c30783631342c30783264632c30783631362c30783265302c30783631382c30783361362c30783631652c30783432382c30783632322c30783432632c30783633362c30783335662c30783634362c3078336463382c,
  0x2020202030783634382c3078336365342c30783635302c30783265342c30783635612c3078336365632c3078383636302c3078336365382c30783630362c3078336366382c3078383634362c3078336366632c30783630302c3078336430302c30783630322c3078336430342c,
  0x2020202030783630342c30783265382c30783630652c3078336430632c30783631302c3078336430382c3078383634362c3078336431302c30783630652c3078336431342c3078383631302c3078336431382c30783630302c3078336465342c30783630322c30783162612c,
  0x2020202030783630342c30783265632c30783630362c3078336466302c30783630382c30783436342c30783630652c3078336431632c30783631302c30783266302c30783631322c3078336465632c3078383634362c3078336465382c30783630322c30783266322c,
  0x2020202030783630342c3078336432302c30783630652c30783266362c30783631382c30783266612c30783634362c3078336432342c3078383636322c3078336432382c30783630302c30783163302c30783630322c30783163322c30783630342c30783163352c,
  0x2020202030783630362c30783163362c30783630382c30783230322c30783630632c30783230372c30783630652c30783434662c30783631302c30783163392c30783631322c3078336434362c30783631342c30783163622c30783631382c30783339632c,
  0x2020202030783631652c30783430322c30783632322c30783430362c30783634362c3078336434332c30783634612c3078336330322c3078383635302c30783230612c30783630652c3078336330362c30783634362c3078336330612c3078383636322c3078336330652c,
  0x2020202030783630322c30783230652c30783630342c30783231322c30783630652c30783231362c30783631382c30783231612c3078383634652c30783163662c30783630652c3078336331362c30783631382c30783231652c30783634362c3078336331612c,
  0x2020202030783634652c3078336332322c30783635612c3078336332362c3078383636322c3078336331652c30783630302c30783164302c30783630322c30783164322c30783630342c30783164352c30783630362c3078336437612c30783630382c30783232372c,
  0x2020202030783630632c30783232612c30783630652c30783232652c30783631302c30783164362c30783631322c3078336437362c30783631382c30783233362c30783631652c30783430612c30783632322c30783430652c30783634362c3078336437332c,
  0x2020202030783634652c30783435332c30783635302c30783233322c30783635612c3078336333322c3078383636302c3078336333362c3078383630652c3078336333652c30783630322c30783365612c30783630342c30783233612c30783630382c3078336334322c,
  0x2020202030783630632c30783233652c30783630652c30783234322c30783631382c30783363652c3078383634652c30783234362c30783630342c30783234612c30783630652c3078336334362c30783631302c3078336334652c30783631382c30783433652c,
  0x2020202030783634362c3078336334612c30783634652c3078336335322c30783635632c3078336335362c3078383636322c3078336432632c30783630302c30783164382c30783630322c30783164612c30783630342c30783164632c30783630362c30783235322c,
  0x2020202030783630382c30783235362c30783630632c30783235612c30783631302c30783164662c30783631322c3078336439322c30783631382c30783361302c30783631652c30783431322c30783632322c30783431362c30783634362c3078336439362c,
  0x2020202030783635302c30783235652c3078383636302c3078336335612c30783630342c30783236612c3078383631382c30783365302c30783630322c3078336336322c30783631382c30783364322c30783634362c3078336336362c30783634652c30783236652c,
  0x202020203078383636322c3078336336612c30783630322c30783237342c30783631382c30783237632c30783634362c3078336336662c30783634652c30783237382c30783635612c3078336337612c3078383636322c3078336337362c30783630322c3078336337652c,
  0x2020202030783630652c3078336338322c3078383634362c3078336338362c30783630302c30783366322c30783630322c30783238382c30783630362c30783165322c30783630652c3078336338612c30783631382c30783239302c30783634362c3078336338652c,
  0x2020202030783634652c30783238632c30783635612c3078336339362c3078383636322c3078336339322c30783630302c30783165342c30783630322c30783165362c30783630342c30783165392c30783630362c30783165622c30783630382c30783239622c,
  0x2020202030783630632c30783239652c30783630652c30783435662c30783631302c30783165642c30783631322c3078336439652c30783631362c30783261322c30783631382c30783361342c30783631652c30783431612c30783632322c30783431652c,
  0x2020202030783633362c30783334332c30783634362c3078336439622c3078383635302c30783364372c30783630322c3078336361612c3078383630652c3078336361652c30783630322c30783261612c30783630652c3078336362322c30783631382c30783262322c,
  0x2020202030783631652c30783432322c30783632322c30783432362c30783634362c3078336362372c30783634652c30783261652c3078383636322c3078336362652c30783630322c30783262372c30783630342c30783262612c30783630652c3078336363322c,
  0x2020202030783631382c30783263332c30783634362c3078336363372c30783634632c30783433322c3078383634652c30783262652c30783630652c3078336364362c30783631302c3078336432652c30783631382c30783263612c30783634362c3078336364612c,
  0x2020202030783634632c30783433362c30783634652c30783263362c30783635612c3078336365322c3078383636322c3078336364652c30783630302c30783166322c30783630322c30783166342c30783630342c30783166362c30783630362c30783264332c,
  0x2020202030783630382c30783264372c30783630632c30783264612c30783631302c30783166392c30783631322c3078336463652c30783631342c30783264652c30783631362c30783265322c30783631382c30783361382c30783631652c30783432612c,
  0x2020202030783632322c30783432652c30783633362c30783336312c30783634362c3078336463612c30783634382c3078336365362c30783635302c30783265362c30783635612c3078336365652c3078383636302c3078336365612c30783630362c3078336366612c,
  0x202020203078383634362c3078336366652c30783630302c3078336430322c30783630322c3078336430362c30783630342c30783265612c30783630652c3078336430652c30783631302c3078336430612c30783631342c3078336433302c3078383634362c3078336431322c,
  0x2020202030783630652c3078336431362c3078383631302c3078336431612c30783630302c3078336465362c30783630322c30783166612c30783630342c30783265652c30783630362c3078336466322c30783630382c30783436362c30783630652c3078336431652c,
  0x2020202030783631302c30783166652c30783631322c3078336465652c30783631342c3078336433322c3078383634362c3078336465612c30783630322c30783266342c30783630342c3078336432322c30783630652c30783266382c30783631382c30783266632c,
  0x2020202030783634362c3078336432362c3078383636322c3078336432612c30783630302c3078336664612c30783630322c30783730612c3078383638342c3078336638322c30783630322c30783366382c3078383630382c30783363342c3078383630322c30783366632c,
  0x2020202030783630322c30783366612c3078383630382c30783363362c3078383630322c30783366652c3078383630652c3078336433362c3078383631382c30783364632c3078383631382c30783364652c30783630302c3078336637342c30783630322c30783730632c,
  0x2020202030783630382c3078336637322c30783630632c3078336637302c30783632362c3078336531312c30783632382c3078336531332c3078383638612c3078336637382c30783630302c3078336639302c30783630322c30783731302c30783632362c3078336533312c,
  0x202020203078383632382c3078336533332c30783630302c3078336639342c30783630322c30783731322c30783632362c3078336535312c30783632382c3078336535332c3078383638612c3078336639382c30783630302c3078336662342c30783630322c30783731342c,
  0x2020202030783630382c3078336662322c30783630632c3078336662302c30783631302c30783735342c30783632362c3078336537312c3078383632382c3078336537332c30783630302c3078336666302c30783630322c30783731382c30783632362c3078336539312c,
  0x202020203078383632382c3078336539332c3078383632382c3078336664382c30783630302c3078336664342c30783630322c30783731632c30783630382c3078336664322c30783630632c3078336664302c30783631302c30783735362c3078383632382c3078336562332c,
  0x2020202030783630302c3078336666342c30783630322c30783731652c30783632362c3078336564312c30783632382c3078336564332c3078383638612c3078336666382c30783630302c3078336565312c30783630322c30783735392c30783630382c3078336636322c,
  0x2020202030783630632c3078336636302c30783632362c3078336530312c30783632382c3078336530332c30783638342c3078336636642c3078383638612c3078336636362c30783630302c3078336565342c30783630322c30783735612c30783632362c3078336532312c,
  0x202020203078383632382c3078336532332c30783630302c3078336565392c30783630322c30783735642c30783632362c3078336534312c30783632382c3078336534332c30783638342c3078336638642c3078383638612c3078336638362c30783630302c3078336565632c,
  0x2020202030783630322c30783735652c30783630382c3078336661322c30783630632c3078336661302c30783631302c30783739352c30783632362c3078336536312c30783632382c3078336536332c3078383638342c3078336661632c30783630302c3078336566302c,
  0x2020202030783630322c30783739382c30783632362c3078336538312c3078383632382c3078336538332c30783632362c3078336663382c3078383632382c3078336663612c30783630302c3078336566342c30783630322c30783739612c30783630382c3078336663322c,
  0x2020202030783630632c3078336663302c30783631302c30783739372c30783632362c3078336561312c30783632382c3078336561332c3078383638342c3078336663632c30783630302c3078336566392c30783630322c30783739642c30783632362c3078336563312c,
  0x2020202030783632382c3078336563332c30783638342c3078336665642c3078383638612c3078336665362c30783630322c30783761362c3078383631302c30783761382c3078383631302c30783830652c30783630632c30783961302c3078383631302c30783961342c,
  0x202020203078383630322c30783830362c30783630302c30783830302c30783630632c30783961632c3078383631302c30783830322c30783630632c30783938322c3078383631302c30783962382c3078383631302c30783962632c30783630302c30783831612c,
  0x2020202030783630382c30783963342c30783630632c30783833322c3078383631302c30783963382c3078383630322c30783831382c3078383631302c30783963632c30783630382c30783964632c30783630632c30783831632c30783631302c30783965302c,
  0x202020203078383631362c30783965342c3078383631302c30783965382c3078383631302c30783966302c3078383631302c30783964382c30783630632c30783961322c3078383631302c30783961362c3078383630322c30783861362c30783630302c30783861302c,
  0x2020202030783630632c30783961652c3078383631302c30783861322c30783630632c30783938342c3078383631302c30783962612c3078383631302c30783962652c30783630302c30783862612c30783630382c30783963362c30783630632c30783837322c,
  0x202020203078383631302c30783963612c3078383630322c30783862382c3078383631302c30783963652c30783630382c30783964652c30783630632c30783862632c30783631302c30783965322c3078383631362c30783965362c3078383631302c30783965612c,
  0x202020203078383631302c30783966322c3078383631302c30783964612c3078383631302c30783861652c3078383631652c30783865632c3078383631652c30783865652c3078383631302c30783962342c3078383631302c30783962362c3078383631302c30783964342c,
  0x202020203078383631302c30783964362c30786361362c30786334342c30786361382c30786334362c3078386361612c30786334612c3078386361382c30786334382c3078386361382c30786334632c3078386361382c30786438342c3078386361382c30786461362c,
  0x202020203078386361382c30786438302c3078393237382c3078313235322c3078393237382c3078313236322c3078393237382c3078313236382c3078313337632c3078313339362c3078393361652c3078313339382c3078313637632c3078313639362c3078313661632c3078313639302c,
  0x202020203078393661652c3078313639382c3078393761652c3078313732382c3078313737632c3078313739342c3078393761652c3078313739382c3078393737632c3078313739362c3078393861632c3078313839302c3078393961612c3078313938302c3078313938342c3078313939352c,
  0x202020203078313961612c3078313938652c3078393961632c3078313939302c3078316137632c3078316139342c3078396161652c3078316139382c3078396137632c3078316139362c3078316239342c3078316262342c3078316239652c3078316262392c3078396262652c3078316262632c,
  0x202020203078613035632c3078323034632c3078623636612c3078333630632c3078623636612c3078333631302c3078623636612c3078333631342c3078623636612c3078333631382c3078623636612c3078333631632c3078623636612c3078333632342c3078623636612c3078333637362c,
  0x202020203078623636612c3078333637612c3078623636612c3078333638302c3078623636612c3078333638322c3078623636612c3078333638362c30783630302c3078336639612c30783630322c3078336639632c3078383638342c3078336639652c30783630302c3078336662612c,
  0x2020202030783630322c3078336662632c3078383638342c3078336662652c3078383637302c3078343333342c3078383637302c3078343333362c3078383637302c3078343335632c3078383637302c3078343339612c3078383637302c3078343339652c3078383637302c3078343339632c,
  0x202020203078383637302c3078343430382c3078383637302c3078343431322c3078383637302c3078343431382c3078383637302c3078343434382c3078383637302c3078343434632c3078383637302c3078343438322c3078383637302c3078343438382c3078383637302c3078343438652c,
  0x202020203078383637302c3078343439322c3078383637302c3078343464612c3078383637302c3078343463342c3078383637302c3078343465302c3078383637302c3078343465322c3078383637302c3078343465382c3078383637302c3078343465612c3078383637302c3078343466302c,
  0x202020203078383637302c3078343466322c3078383637302c3078343530302c3078383637302c3078343530322c3078383637302c3078343563302c3078383637302c3078343563322c3078383637302c3078343530382c3078383637302c3078343530612c3078383637302c3078343531302c,
  0x202020203078383637302c3078343531322c3078383637302c3078343563342c3078383637302c3078343563362c3078383637302c3078343535382c3078383637302c3078343535612c3078383637302c3078343535632c3078383637302c3078343535652c3078383637302c3078343564342c,
  0x202020203078383637302c3078343564362c3078383637302c3078343564382c3078383637302c3078343564612c3078653133322c3078363132382c3078653133322c3078363039382c3078653133322c3078363039632c3078653133322c3078363061302c3078653133322c3078363061342c,
  0x202020203078653133322c3078363061382c3078653133322c3078363061632c3078653133322c3078363062302c3078653133322c3078363062342c3078653133322c3078363062382c3078653133322c3078363062632c3078653133322c3078363063302c3078653133322c3078363063342c,
  0x202020203078653133322c3078363063612c3078653133322c3078363063652c3078653133322c3078363064322c3078363133322c3078363065302c3078653133342c3078363065322c3078363133322c3078363065362c3078653133342c3078363065382c3078363133322c3078363065632c,
  0x202020203078653133342c3078363065652c3078363133322c3078363066322c3078653133342c3078363066342c3078363133322c3078363066382c3078653133342c3078363066612c3078653133322c3078363133632c3078653133322c3078363165382c3078653133322c3078363135382c,
  0x202020203078653133322c3078363135632c3078653133322c3078363136302c3078653133322c3078363136342c3078653133322c3078363136382c3078653133322c3078363136632c3078653133322c3078363137302c3078653133322c3078363137342c3078653133322c3078363137382c,
  0x202020203078653133322c3078363137632c3078653133322c3078363138302c3078653133322c3078363138342c3078653133322c3078363138612c3078653133322c3078363138652c3078653133322c3078363139322c3078363133322c3078363161302c3078653133342c3078363161322c,
  0x202020203078363133322c3078363161362c3078653133342c3078363161382c3078363133322c3078363161632c3078653133342c3078363161652c3078363133322c3078363162322c3078653133342c3078363162342c3078363133322c3078363162382c3078653133342c3078363162612c,
  0x202020203078653133322c3078363165652c3078653133322c3078363166302c3078653133322c3078363166322c3078653133322c3078363166342c3078653133322c3078363166632c3078623438392c3078326538322c3078323133342c3078623438392c3078326538322c3078323133382c,
  0x202020203078623438392c3078326538322c3078323135362c3078623438392c3078343963322c3078323235632c3078623438392c3078343963322c3078323235652c3078333438392c3078636638322c3078323639362c3078623438392c3078643563322c3078323639382c3078333438622c,
  0x202020203078326330322c3078323937382c3078333438622c3078326538322c3078323937362c3078623438622c3078326634322c3078323937632c3078623438622c3078366263322c3078326237342c3078623438622c3078366263322c3078326237362c3078623438642c3078346330322c,
  0x202020203078333237302c322c3078653630322c307834312c30783330322c30783630302c3078336434632c30783630322c3078336434382c30783630362c3078336435342c3078383631322c3078336435302c3078653630322c307834312c30783330382c,
  0x202020203078383630382c30783362632c3078653630322c307834312c30783330612c3078383630322c30783366342c3078636130322c307834332c30783332372c3078383630322c3078336331302c3078653630322c307834352c30783330322c30783630302c,
  0x202020203078336438302c30783630322c3078336437632c30783630362c3078336438382c3078383631322c3078336438342c3078653630322c307834392c30783330382c3078383630322c3078336335632c3078653630322c307834662c30783330322c30783630302c,
  0x202020203078336461342c30783630322c3078336461302c30783630362c3078336461632c3078383631322c3078336461382c3078653630322c307834662c30783330332c30783630322c3078336339382c30783630382c30783435382c3078383631302c3078336339632c,
  0x202020203078653630322c307834662c30783330382c3078383630382c30783435342c3078653630322c307835352c30783330382c30783630302c30783362362c30783630322c30783361652c30783630382c30783361612c3078383631382c30783362322c,
  0x202020203078653630322c307836312c30783330322c30783630302c3078336434652c30783630322c3078336434612c30783630362c3078336435362c3078383631322c3078336435322c3078653630322c307836312c30783330382c3078383630382c30783362652c,
  0x202020203078653630322c307836312c30783330612c3078383630322c30783366362c3078636130322c307836332c30783332372c3078383630322c3078336331322c3078653630322c307836352c30783330322c30783630302c3078336438322c30783630322c,
  0x202020203078336437652c30783630362c3078336438612c3078383631322c3078336438362c3078653630322c307836392c30783330382c3078383630322c3078336335652c3078653630322c307836662c30783330322c30783630302c3078336461362c30783630322c,
  0x202020203078336461322c30783630362c3078336461652c3078383631322c3078336461612c3078653630322c307836662c30783330332c30783630322c3078336339612c30783630382c30783435612c3078383631302c3078336339652c3078653630322c307836662c,
  0x2020202030783330382c3078383630382c30783435362c3078653630322c307837352c30783330382c30783630302c30783362382c30783630322c30783362302c30783630382c30783361632c3078383631382c30783362342c3078653630322c307834312c,
  0x2020202030783330362c30783630302c3078336436302c30783630322c3078336435632c30783630362c3078336436382c3078383631322c3078336436342c3078653630322c307836312c30783330362c30783630302c3078336436322c30783630322c3078336435652c,
  0x2020202030783630362c3078336436612c3078383631322c3078336436362c3078653630322c307834352c30783330342c30783630302c3078336332382c3078383630322c3078336332632c3078653630322c307836352c30783330342c30783630302c3078336332612c,
  0x202020203078383630322c3078336332652c3078653630322c307834662c30783330342c30783630302c3078336361302c3078383630322c3078336361342c3078653630322c307836662c30783330342c30783630302c3078336361322c3078383630322c3078336361362c,
  0x202020203078653630322c307835332c30783330312c3078383630652c3078336363382c3078653630322c307837332c30783330312c3078383630652c3078336363612c3078653630322c307835332c30783330632c3078383630652c3078336363632c3078653630322c,
  0x20202020307837332c30783330632c3078383630652c3078336363652c3078653630322c307835352c30783330332c3078383630322c3078336366302c3078653630322c307837352c30783330332c3078383630322c3078336366322c3078653630322c307835352c,
  0x2020202030783330342c3078383631302c3078336366342c3078653630322c307837352c30783330342c3078383631302c3078336366362c3078643830322c307834662c30783331622c30783630302c3078336462382c30783630322c3078336462342c30783630362c,
  0x202020203078336463302c30783631322c3078336462632c3078383634362c3078336463342c3078643830322c307836662c30783331622c30783630302c3078336462612c30783630322c3078336462362c30783630362c3078336463322c30783631322c3078336462652c,
  0x202020203078383634362c3078336463362c3078643830322c307835352c30783331622c30783630302c3078336464342c30783630322c3078336464302c30783630362c3078336464632c30783631322c3078336464382c3078383634362c3078336465302c3078643830322c,
  0x20202020307837352c30783331622c30783630302c3078336464362c30783630322c3078336464322c30783630362c3078336464652c30783631322c3078336464612c3078383634362c3078336465322c3078636130322c307834662c30783332382c3078383630382c,
  0x2020202030783364382c3078636130322c307836662c30783332382c3078383630382c30783364612c3078653630322c307834312c30783330372c3078383630382c30783363302c3078653630322c307836312c30783330372c3078383630382c30783363322c,
  0x202020203078636130322c307834352c30783332372c3078383630632c3078336333382c3078636130322c307836352c30783332372c3078383630632c3078336333612c3078653630322c307834662c30783330372c3078383630382c30783436302c3078653630322c,
  0x20202020307836662c30783330372c3078383630382c30783436322c3078653630322c30783362312c30783330312c3078383638612c3078336636382c3078653630322c30783362372c30783330312c3078383638612c3078336638382c3078653630322c30783362392c,
  0x2020202030783330382c30783630302c3078336661342c30783630322c30783732302c3078383638342c3078336661652c3078653630322c30783363352c30783330382c30783630302c3078336663342c30783630322c30783736302c3078383638342c3078336663652c,
  0x202020203078653630322c30783363392c30783330312c3078383638612c3078336665382c322c30786363362c30786363322c3078393961612c3078313939362c322c30786464392c30786463662c3078396239342c3078316262612c3078646330322c,
  0x20202020307834632c30783332332c3078383630382c3078336337302c3078646330322c307836632c30783332332c3078383630382c3078336337322c3078646330322c307835322c30783332332c3078383630382c3078336362382c3078646330322c307837322c,
  0x2020202030783332332c3078383630382c3078336362612c3078646330322c307835332c30783332332c3078383630652c3078336364302c3078646330322c307837332c30783332332c3078383630652c3078336364322c3078646330322c307834312c30783332332c,
  0x2020202030783630342c3078336435382c3078383630632c3078336436632c3078646330322c307836312c30783332332c30783630342c3078336435612c3078383630632c3078336436652c3078646330322c307834352c30783332332c3078383630342c3078336438632c,
  0x202020203078646330322c307836352c30783332332c3078383630342c3078336438652c3078646330322c307834662c30783332332c3078383630342c3078336462302c3078646330322c307836662c30783332332c3078383630342c3078336462322c3078653630322c,
  0x2020202030783362312c30783331332c30783630302c3078336530352c30783630322c3078336530392c30783638342c3078336530642c3078383638612c3078336630302c3078653630322c30783362312c30783331342c30783630302c3078336530372c30783630322c,
  0x202020203078336530622c30783638342c3078336530662c3078383638612c3078336630322c3078316630302c3078653634332c30783362312c30783331332c30783330302c3078383638612c3078336630342c3078316630312c3078653634332c30783362312c30783331342c,
  0x2020202030783330302c3078383638612c3078336630362c3078316630302c3078653634332c30783362312c30783331332c30783330312c3078383638612c3078336630382c3078316630312c3078653634332c30783362312c30783331342c30783330312c3078383638612c,
  0x202020203078336630612c3078316630302c3078653634332c30783362312c30783331332c30783334322c3078383638612c3078336630632c3078316630312c3078653634332c30783362312c30783331342c30783334322c3078383638612c3078336630652c3078653630322c,
  0x2020202030783339312c30783331332c30783630302c3078336531352c30783630322c3078336531392c30783638342c3078336531642c3078383638612c3078336631302c3078653630322c30783339312c30783331342c30783630302c3078336531372c30783630322c,
  0x202020203078336531622c30783638342c3078336531662c3078383638612c3078336631322c3078316630382c3078653634332c30783339312c30783331332c30783330302c3078383638612c3078336631342c3078316630392c3078653634332c30783339312c30783331342c,
  0x2020202030783330302c3078383638612c3078336631362c3078316630382c3078653634332c30783339312c30783331332c30783330312c3078383638612c3078336631382c3078316630392c3078653634332c30783339312c30783331342c30783330312c3078383638612c,
  0x202020203078336631612c3078316630382c3078653634332c30783339312c30783331332c30783334322c3078383638612c3078336631632c3078316630392c3078653634332c30783339312c30783331342c30783334322c3078383638612c3078336631652c3078653630322c,
  0x2020202030783362352c30783331332c30783630302c3078336532342c3078383630322c3078336532382c3078653630322c30783362352c30783331342c30783630302c3078336532362c3078383630322c3078336532612c3078653630322c30783339352c30783331332c,
  0x2020202030783630302c3078336533342c3078383630322c3078336533382c3078653630322c30783339352c30783331342c30783630302c3078336533362c3078383630322c3078336533612c3078653630322c30783362372c30783331332c30783630302c3078336534352c,
  0x2020202030783630322c3078336534392c30783638342c3078336534642c3078383638612c3078336632302c3078653630322c30783362372c30783331342c30783630302c3078336534372c30783630322c3078336534622c30783638342c3078336534662c3078383638612c,
  0x202020203078336632322c3078316632302c3078653634332c30783362372c30783331332c30783330302c3078383638612c3078336632342c3078316632312c3078653634332c30783362372c30783331342c30783330302c3078383638612c3078336632362c3078316632302c,
  0x202020203078653634332c30783362372c30783331332c30783330312c3078383638612c3078336632382c3078316632312c3078653634332c30783362372c30783331342c30783330312c3078383638612c3078336632612c3078316632302c3078653634332c30783362372c,
  0x2020202030783331332c30783334322c3078383638612c3078336632632c3078316632312c3078653634332c30783362372c30783331342c30783334322c3078383638612c3078336632652c3078653630322c30783339372c30783331332c30783630302c3078336535352c,
  0x2020202030783630322c3078336535392c30783638342c3078336535642c3078383638612c3078336633302c3078653630322c30783339372c30783331342c30783630302c3078336535372c30783630322c3078336535622c30783638342c3078336535662c3078383638612c,
  0x202020203078336633322c3078316632382c3078653634332c30783339372c30783331332c30783330302c3078383638612c3078336633342c3078316632392c3078653634332c30783339372c30783331342c30783330302c3078383638612c3078336633362c3078316632382c,
  0x202020203078653634332c30783339372c30783331332c30783330312c3078383638612c3078336633382c3078316632392c3078653634332c30783339372c30783331342c30783330312c3078383638612c3078336633612c3078316632382c3078653634332c30783339372c,
  0x2020202030783331332c30783334322c3078383638612c3078336633632c3078316632392c3078653634332c30783339372c30783331342c30783334322c3078383638612c3078336633652c3078653630322c30783362392c30783331332c30783630302c3078336536342c,
  0x2020202030783630322c3078336536382c3078383638342c3078336536632c3078653630322c30783362392c30783331342c30783630302c3078336536362c30783630322c3078336536612c3078383638342c3078336536652c3078653630322c30783339392c30783331332c,
  0x2020202030783630302c3078336537342c30783630322c3078336537382c3078383638342c3078336537632c3078653630322c30783339392c30783331342c30783630302c3078336537362c30783630322c3078336537612c3078383638342c3078336537652c3078653630322c,
  0x2020202030783362662c30783331332c30783630302c3078336538342c3078383630322c3078336538382c3078653630322c30783362662c30783331342c30783630302c3078336538362c3078383630322c3078336538612c3078653630322c30783339662c30783331332c,
  0x2020202030783630302c3078336539342c3078383630322c3078336539382c3078653630322c30783339662c30783331342c30783630302c3078336539362c3078383630322c3078336539612c3078653630322c30783363352c30783331332c30783630302c3078336561342c,
  0x2020202030783630322c3078336561382c3078383638342c3078336561632c3078653630322c30783363352c30783331342c30783630302c3078336561362c30783630322c3078336561612c3078383638342c3078336561652c3078653630322c30783361352c30783331342c,
  0x2020202030783630302c3078336562362c30783630322c3078336562612c3078383638342c3078336562652c3078653630322c30783363392c30783331332c30783630302c3078336563352c30783630322c3078336563392c30783638342c3078336563642c3078383638612c,
  0x202020203078336634302c3078653630322c30783363392c30783331342c30783630302c3078336563372c30783630322c3078336563622c30783638342c3078336563662c3078383638612c3078336634322c3078316636302c3078653634332c30783363392c30783331332c,
  0x2020202030783330302c3078383638612c3078336634342c3078316636312c3078653634332c30783363392c30783331342c30783330302c3078383638612c3078336634362c3078316636302c3078653634332c30783363392c30783331332c30783330312c3078383638612c,
  0x202020203078336634382c3078316636312c3078653634332c30783363392c30783331342c30783330312c3078383638612c3078336634612c3078316636302c3078653634332c30783363392c30783331332c30783334322c3078383638612c3078336634632c3078316636312c,
  0x202020203078653634332c30783363392c30783331342c30783334322c3078383638612c3078336634652c3078653630322c30783361392c30783331332c30783630302c3078336564352c30783630322c3078336564392c30783638342c3078336564642c3078383638612c,
  0x202020203078336635302c3078653630322c30783361392c30783331342c30783630302c3078336564372c30783630322c3078336564622c30783638342c3078336564662c3078383638612c3078336635322c3078316636382c3078653634332c30783361392c30783331332c,
  0x2020202030783330302c3078383638612c3078336635342c3078316636392c3078653634332c30783361392c30783331342c30783330302c3078383638612c3078336635362c3078316636382c3078653634332c30783361392c30783331332c30783330312c3078383638612c,
  0x202020203078336635382c3078316636392c3078653634332c30783361392c30783331342c30783330312c3078383638612c3078336635612c3078316636382c3078653634332c30783361392c30783331332c30783334322c3078383638612c3078336635632c3078316636392c,
  0x202020203078653634332c30783361392c30783331342c30783334322c3078383638612c3078336635652c3078653630322c30783362312c30783330302c3078383638612c3078336636342c3078653630322c30783362372c30783330302c3078383638612c3078336638342c,
  0x202020203078653630322c30783363392c30783330302c3078383638612c3078336665342c3078653630322c30783362312c30783334322c3078383638612c3078336636652c3078653630322c30783362372c30783334322c3078383638612c3078336638652c3078653630322c,
  0x2020202030783363392c30783334322c3078383638612c3078336665652c332c3078653630322c307834312c30783330302c3078653630322c307834312c30783330312c3078653630322c307834312c30783330332c3078653630322c307834352c,
  0x2020202030783330302c3078653630322c307834352c30783330312c3078653630322c307834352c30783330382c3078653630322c307834392c30783330302c3078653630322c307834392c30783330312c3078653630322c307834392c30783330322c,
  0x202020203078653630322c307834652c30783330332c3078653630322c307834662c30783330302c3078653630322c307834662c30783330312c3078653630322c307835352c30783330302c3078653630322c307835352c30783330312c3078653630322c,
  0x20202020307835352c30783330322c3078653630322c307835392c30783330312c3078653630322c307836312c30783330302c3078653630322c307836312c30783330312c3078653630322c307836312c30783330332c3078653630322c307836352c,
  0x2020202030783330302c3078653630322c307836352c30783330312c3078653630322c307836352c30783330382c3078653630322c307836392c30783330302c3078653630322c307836392c30783330312c3078653630322c307836392c30783330322c,
  0x202020203078653630322c307836652c30783330332c3078653630322c307836662c30783330302c3078653630322c307836662c30783330312c3078653630322c307837352c30783330302c3078653630322c307837352c30783330312c3078653630322c,
  0x20202020307837352c30783330322c3078653630322c307837392c30783330312c3078653630322c307837392c30783330382c3078653630322c307834312c30783330342c3078653630322c307836312c30783330342c3078636130322c307834312c,
  0x2020202030783332382c3078636130322c307836312c30783332382c3078653630322c307834332c30783330312c3078653630322c307836332c30783330312c3078653630322c307834332c30783330322c3078653630322c307836332c30783330322c,
  0x202020203078653630322c307834332c30783330372c3078653630322c307836332c30783330372c3078653630322c307834332c30783330632c3078653630322c307836332c30783330632c3078653630322c307834342c30783330632c3078653630322c,
  0x20202020307836342c30783330632c3078653630322c307834352c30783330362c3078653630322c307836352c30783330362c3078653630322c307834352c30783330372c3078653630322c307836352c30783330372c3078636130322c307834352c,
  0x2020202030783332382c3078636130322c307836352c30783332382c3078653630322c307834352c30783330632c3078653630322c307836352c30783330632c3078653630322c307834372c30783330322c3078653630322c307836372c30783330322c,
  0x202020203078653630322c307834372c30783330362c3078653630322c307836372c30783330362c3078653630322c307834372c30783330372c3078653630322c307836372c30783330372c3078636130322c307834372c30783332372c3078636130322c,
  0x20202020307836372c30783332372c3078653630322c307834382c30783330322c3078653630322c307836382c30783330322c3078653630322c307834392c30783330332c3078653630322c307836392c30783330332c3078653630322c307834392c,
  0x2020202030783330342c3078653630322c307836392c30783330342c3078653630322c307834392c30783330362c3078653630322c307836392c30783330362c3078636130322c307834392c30783332382c3078636130322c307836392c30783332382c,
  0x202020203078653630322c307834392c30783330372c3078653630322c307834612c30783330322c3078653630322c307836612c30783330322c3078636130322c307834622c30783332372c3078636130322c307836622c30783332372c3078653630322c,
  0x20202020307834632c30783330312c3078653630322c307836632c30783330312c3078636130322c307834632c30783332372c3078636130322c307836632c30783332372c3078653630322c307834632c30783330632c3078653630322c307836632c,
  0x2020202030783330632c3078653630322c307834652c30783330312c3078653630322c307836652c30783330312c3078636130322c307834652c30783332372c3078636130322c307836652c30783332372c3078653630322c307834652c30783330632c,
  0x202020203078653630322c307836652c30783330632c3078653630322c307834662c30783330362c3078653630322c307836662c30783330362c3078653630322c307834662c30783330622c3078653630322c307836662c30783330622c3078653630322c,
  0x20202020307835322c30783330312c3078653630322c307837322c30783330312c3078636130322c307835322c30783332372c3078636130322c307837322c30783332372c3078653630322c307835322c30783330632c3078653630322c307837322c,
  0x2020202030783330632c3078653630322c307835332c30783330322c3078653630322c307837332c30783330322c3078636130322c307835332c30783332372c3078636130322c307837332c30783332372c3078636130322c307835342c30783332372c,
  0x202020203078636130322c307837342c30783332372c3078653630322c307835342c30783330632c3078653630322c307837342c30783330632c3078653630322c307835352c30783330362c3078653630322c307837352c30783330362c3078653630322c,
  0x20202020307835352c30783330612c3078653630322c307837352c30783330612c3078653630322c307835352c30783330622c3078653630322c307837352c30783330622c3078636130322c307835352c30783332382c3078636130322c307837352c,
  0x2020202030783332382c3078653630322c307835372c30783330322c3078653630322c307837372c30783330322c3078653630322c307835392c30783330322c3078653630322c307837392c30783330322c3078653630322c307835392c30783330382c,
  0x202020203078653630322c307835612c30783330312c3078653630322c307837612c30783330312c3078653630322c307835612c30783330372c3078653630322c307837612c30783330372c3078653630322c307835612c30783330632c3078653630322c,
  0x20202020307837612c30783330632c3078653630322c307834312c30783330632c3078653630322c307836312c30783330632c3078653630322c307834392c30783330632c3078653630322c307836392c30783330632c3078653630322c307834662c,
  0x2020202030783330632c3078653630322c307836662c30783330632c3078653630322c307835352c30783330632c3078653630322c307837352c30783330632c307864632c3078653634332c307835352c30783330382c30783330342c307866632c,
  0x202020203078653634332c307837352c30783330382c30783330342c307864632c3078653634332c307835352c30783330382c30783330312c307866632c3078653634332c307837352c30783330382c30783330312c307864632c3078653634332c,
  0x20202020307835352c30783330382c30783330632c307866632c3078653634332c307837352c30783330382c30783330632c307864632c3078653634332c307835352c30783330382c30783330302c307866632c3078653634332c307837352c,
  0x2020202030783330382c30783330302c307863342c3078653634332c307834312c30783330382c30783330342c307865342c3078653634332c307836312c30783330382c30783330342c30783232362c3078653634332c307834312c30783330372c,
  0x2020202030783330342c30783232372c3078653634332c307836312c30783330372c30783330342c3078653630322c307863362c30783330342c3078653630322c307865362c30783330342c3078653630322c307834372c30783330632c3078653630322c,
  0x20202020307836372c30783330632c3078653630322c307834622c30783330632c3078653630322c307836622c30783330632c30783165612c3078653634332c307834662c30783332382c30783330342c30783165622c3078653634332c307836662c,
  0x2020202030783332382c30783330342c3078653630322c30783162372c30783330632c3078653630322c30783239322c30783330632c3078653630322c307836612c30783330632c3078653630322c307834372c30783330312c3078653630322c307836372c,
  0x2020202030783330312c3078653630322c307834652c30783330302c3078653630322c307836652c30783330302c307863352c3078653634332c307834312c30783330612c30783330312c307865352c3078653634332c307836312c30783330612c,
  0x2020202030783330312c3078653630322c307863362c30783330312c3078653630322c307865362c30783330312c3078653630322c307864382c30783330312c3078653630322c307866382c30783330312c3078653630322c307834312c30783330662c,
  0x202020203078653630322c307836312c30783330662c3078653630322c307834312c30783331312c3078653630322c307836312c30783331312c3078653630322c307834352c30783330662c3078653630322c307836352c30783330662c3078653630322c,
  0x20202020307834352c30783331312c3078653630322c307836352c30783331312c3078653630322c307834392c30783330662c3078653630322c307836392c30783330662c3078653630322c307834392c30783331312c3078653630322c307836392c,
  0x2020202030783331312c3078653630322c307834662c30783330662c3078653630322c307836662c30783330662c3078653630322c307834662c30783331312c3078653630322c307836662c30783331312c3078653630322c307835322c30783330662c,
  0x202020203078653630322c307837322c30783330662c3078653630322c307835322c30783331312c3078653630322c307837322c30783331312c3078653630322c307835352c30783330662c3078653630322c307837352c30783330662c3078653630322c,
  0x20202020307835352c30783331312c3078653630322c307837352c30783331312c3078646330322c307835332c30783332362c3078646330322c307837332c30783332362c3078646330322c307835342c30783332362c3078646330322c307837342c,
  0x2020202030783332362c3078653630322c307834382c30783330632c3078653630322c307836382c30783330632c307864362c3078653634332c307834662c30783330382c30783330342c307866362c3078653634332c307836662c30783330382c,
  0x2020202030783330342c307864352c3078653634332c307834662c30783330332c30783330342c307866352c3078653634332c307836662c30783330332c30783330342c30783232652c3078653634332c307834662c30783330372c30783330342c,
  0x2020202030783232662c3078653634332c307836662c30783330372c30783330342c3078653630322c307835392c30783330342c3078653630322c307837392c30783330342c3078653630322c307861382c30783330312c3078653630322c30783339312c,
  0x2020202030783330312c3078653630322c30783339352c30783330312c3078653630322c30783339372c30783330312c3078653630322c30783339392c30783330312c3078653630322c30783339662c30783330312c3078653630322c30783361352c30783330312c,
  0x202020203078653630322c30783361392c30783330312c30783363612c3078653634332c30783362392c30783330382c30783330312c3078653630322c30783339392c30783330382c3078653630322c30783361352c30783330382c3078653630322c30783362352c,
  0x2020202030783330312c3078653630322c30783362392c30783330312c30783363622c3078653634332c30783363352c30783330382c30783330312c3078653630322c30783362662c30783330312c3078653630322c30783363352c30783330312c3078653630322c,
  0x2020202030783364322c30783330312c3078653630322c30783364322c30783330382c3078653630322c30783431352c30783330302c3078653630322c30783431352c30783330382c3078653630322c30783431332c30783330312c3078653630322c30783430362c,
  0x2020202030783330382c3078653630322c30783431612c30783330312c3078653630322c30783431382c30783330302c3078653630322c30783432332c30783330362c3078653630322c30783431382c30783330362c3078653630322c30783433382c30783330362c,
  0x202020203078653630322c30783433352c30783330302c3078653630322c30783433352c30783330382c3078653630322c30783433332c30783330312c3078653630322c30783435362c30783330382c3078653630322c30783433612c30783330312c3078653630322c,
  0x2020202030783433382c30783330302c3078653630322c30783434332c30783330362c3078653630322c30783437342c30783330662c3078653630322c30783437352c30783330662c3078653630322c30783431362c30783330362c3078653630322c30783433362c,
  0x2020202030783330362c3078653630322c30783431302c30783330362c3078653630322c30783433302c30783330362c3078653630322c30783431302c30783330382c3078653630322c30783433302c30783330382c3078653630322c30783431352c30783330362c,
  0x202020203078653630322c30783433352c30783330362c3078653630322c30783464382c30783330382c3078653630322c30783464392c30783330382c3078653630322c30783431362c30783330382c3078653630322c30783433362c30783330382c3078653630322c,
  0x2020202030783431372c30783330382c3078653630322c30783433372c30783330382c3078653630322c30783431382c30783330342c3078653630322c30783433382c30783330342c3078653630322c30783431382c30783330382c3078653630322c30783433382c,
  0x2020202030783330382c3078653630322c30783431652c30783330382c3078653630322c30783433652c30783330382c3078653630322c30783465382c30783330382c3078653630322c30783465392c30783330382c3078653630322c30783432642c30783330382c,
  0x202020203078653630322c30783434642c30783330382c3078653630322c30783432332c30783330342c3078653630322c30783434332c30783330342c3078653630322c30783432332c30783330382c3078653630322c30783434332c30783330382c3078653630322c,
  0x2020202030783432332c30783330622c3078653630322c30783434332c30783330622c3078653630322c30783432372c30783330382c3078653630322c30783434372c30783330382c3078653630322c30783432622c30783330382c3078653630322c30783434622c,
  0x2020202030783330382c3078653630322c30783632372c30783635332c3078653630322c30783632372c30783635342c3078653630322c30783634382c30783635342c3078646330322c30783632372c30783635352c3078653630322c30783634612c30783635342c,
  0x202020203078653630322c30783664352c30783635342c3078653630322c30783663312c30783635342c3078653630322c30783664322c30783635342c30783730322c30783932382c30783933632c30783730322c30783933302c30783933632c30783730322c,
  0x2020202030783933332c30783933632c322c30783963372c30783962652c322c30783963372c30783964372c322c30786234372c30786235362c322c30786234372c30786233652c322c30786234372c,
  0x2020202030786235372c322c30786239322c30786264372c322c30786263362c30786262652c322c30786263372c30786262652c322c30786263362c30786264372c3078356230322c30786334362c30786335362c,
  0x20202020322c30786362662c30786364352c322c30786363362c30786364352c322c30786363362c30786364362c30786363612c307834332c30786363362c30786363322c30786364352c322c30786434362c,
  0x2020202030786433652c322c30786434372c30786433652c322c30786434362c30786435372c30783930322c30786464392c30786463612c30786464632c30783934332c30786464392c30786463662c30786463612c322c,
  0x2020202030786464392c30786464662c322c3078313032352c3078313032652c322c3078316230352c3078316233352c322c3078316230372c3078316233352c322c3078316230392c3078316233352c322c3078316230622c,
  0x202020203078316233352c322c3078316230642c3078316233352c322c3078316231312c3078316233352c322c3078316233612c3078316233352c322c3078316233632c3078316233352c322c3078316233652c3078316233352c,
  0x20202020322c3078316233662c3078316233352c322c3078316234322c3078316233352c3078646330322c307834312c30783332352c3078646330322c307836312c30783332352c3078653630322c307834322c30783330372c3078653630322c,
  0x20202020307836322c30783330372c3078646330322c307834322c30783332332c3078646330322c307836322c30783332332c3078646330322c307834322c30783333312c3078646330322c307836322c30783333312c307863372c3078653634332c,
  0x20202020307834332c30783332372c30783330312c307865372c3078653634332c307836332c30783332372c30783330312c3078653630322c307834342c30783330372c3078653630322c307836342c30783330372c3078646330322c307834342c,
  0x2020202030783332332c3078646330322c307836342c30783332332c3078646330322c307834342c30783333312c3078646330322c307836342c30783333312c3078636130322c307834342c30783332372c3078636130322c307836342c30783332372c,
  0x202020203078646330322c307834342c30783332642c3078646330322c307836342c30783332642c30783131322c3078653634332c307834352c30783330342c30783330302c30783131332c3078653634332c307836352c30783330342c30783330302c,
  0x2020202030783131322c3078653634332c307834352c30783330342c30783330312c30783131332c3078653634332c307836352c30783330342c30783330312c3078646330322c307834352c30783332642c3078646330322c307836352c30783332642c,
  0x202020203078646330322c307834352c30783333302c3078646330322c307836352c30783333302c30783232382c3078653634332c307834352c30783332372c30783330362c30783232392c3078653634332c307836352c30783332372c30783330362c,
  0x202020203078653630322c307834362c30783330372c3078653630322c307836362c30783330372c3078653630322c307834372c30783330342c3078653630322c307836372c30783330342c3078653630322c307834382c30783330372c3078653630322c,
  0x20202020307836382c30783330372c3078646330322c307834382c30783332332c3078646330322c307836382c30783332332c3078653630322c307834382c30783330382c3078653630322c307836382c30783330382c3078636130322c307834382c,
  0x2020202030783332372c3078636130322c307836382c30783332372c3078646330322c307834382c30783332652c3078646330322c307836382c30783332652c3078646330322c307834392c30783333302c3078646330322c307836392c30783333302c,
  0x20202020307863662c3078653634332c307834392c30783330382c30783330312c307865662c3078653634332c307836392c30783330382c30783330312c3078653630322c307834622c30783330312c3078653630322c307836622c30783330312c,
  0x202020203078646330322c307834622c30783332332c3078646330322c307836622c30783332332c3078646330322c307834622c30783333312c3078646330322c307836622c30783333312c3078316533362c3078653634332c307834632c30783332332c,
  0x2020202030783330342c3078316533372c3078653634332c307836632c30783332332c30783330342c3078646330322c307834632c30783333312c3078646330322c307836632c30783333312c3078646330322c307834632c30783332642c3078646330322c,
  0x20202020307836632c30783332642c3078653630322c307834642c30783330312c3078653630322c307836642c30783330312c3078653630322c307834642c30783330372c3078653630322c307836642c30783330372c3078646330322c307834642c,
  0x2020202030783332332c3078646330322c307836642c30783332332c3078653630322c307834652c30783330372c3078653630322c307836652c30783330372c3078646330322c307834652c30783332332c3078646330322c307836652c30783332332c,
  0x202020203078646330322c307834652c30783333312c3078646330322c307836652c30783333312c3078646330322c307834652c30783332642c3078646330322c307836652c30783332642c307864352c3078653634332c307834662c30783330332c,
  0x2020202030783330312c307866352c3078653634332c307836662c30783330332c30783330312c307864352c3078653634332c307834662c30783330332c30783330382c307866352c3078653634332c307836662c30783330332c30783330382c,
  0x2020202030783134632c3078653634332c307834662c30783330342c30783330302c30783134642c3078653634332c307836662c30783330342c30783330302c30783134632c3078653634332c307834662c30783330342c30783330312c30783134642c,
  0x202020203078653634332c307836662c30783330342c30783330312c3078653630322c307835302c30783330312c3078653630322c307837302c30783330312c3078653630322c307835302c30783330372c3078653630322c307837302c30783330372c,
  0x202020203078653630322c307835322c30783330372c3078653630322c307837322c30783330372c3078316535612c3078653634332c307835322c30783332332c30783330342c3078316535622c3078653634332c307837322c30783332332c30783330342c,
  0x202020203078646330322c307835322c30783333312c3078646330322c307837322c30783333312c3078653630322c307835332c30783330372c3078653630322c307837332c30783330372c30783135612c3078653634332c307835332c30783330312c,
  0x2020202030783330372c30783135622c3078653634332c307837332c30783330312c30783330372c30783136302c3078653634332c307835332c30783330632c30783330372c30783136312c3078653634332c307837332c30783330632c30783330372c,
  0x202020203078316536322c3078653634332c307835332c30783332332c30783330372c3078316536332c3078653634332c307837332c30783332332c30783330372c3078653630322c307835342c30783330372c3078653630322c307837342c30783330372c,
  0x202020203078646330322c307835342c30783332332c3078646330322c307837342c30783332332c3078646330322c307835342c30783333312c3078646330322c307837342c30783333312c3078646330322c307835342c30783332642c3078646330322c,
  0x20202020307837342c30783332642c3078646330322c307835352c30783332342c3078646330322c307837352c30783332342c3078646330322c307835352c30783333302c3078646330322c307837352c30783333302c3078646330322c307835352c,
  0x2020202030783332642c3078646330322c307837352c30783332642c30783136382c3078653634332c307835352c30783330332c30783330312c30783136392c3078653634332c307837352c30783330332c30783330312c30783136612c3078653634332c,
  0x20202020307835352c30783330342c30783330382c30783136622c3078653634332c307837352c30783330342c30783330382c3078653630322c307835362c30783330332c3078653630322c307837362c30783330332c3078646330322c307835362c,
  0x2020202030783332332c3078646330322c307837362c30783332332c3078653630322c307835372c30783330302c3078653630322c307837372c30783330302c3078653630322c307835372c30783330312c3078653630322c307837372c30783330312c,
  0x202020203078653630322c307835372c30783330382c3078653630322c307837372c30783330382c3078653630322c307835372c30783330372c3078653630322c307837372c30783330372c3078646330322c307835372c30783332332c3078646330322c,
  0x20202020307837372c30783332332c3078653630322c307835382c30783330372c3078653630322c307837382c30783330372c3078653630322c307835382c30783330382c3078653630322c307837382c30783330382c3078653630322c307835392c,
  0x2020202030783330372c3078653630322c307837392c30783330372c3078653630322c307835612c30783330322c3078653630322c307837612c30783330322c3078646330322c307835612c30783332332c3078646330322c307837612c30783332332c,
  0x202020203078646330322c307835612c30783333312c3078646330322c307837612c30783333312c3078646330322c307836382c30783333312c3078653630322c307837342c30783330382c3078653630322c307837372c30783330612c3078653630322c,
  0x20202020307837392c30783330612c3078653630322c30783137662c30783330372c3078653630322c307834312c30783330392c3078653630322c307836312c30783330392c307863322c3078653634332c307834312c30783330322c30783330312c,
  0x20202020307865322c3078653634332c307836312c30783330322c30783330312c307863322c3078653634332c307834312c30783330322c30783330302c307865322c3078653634332c307836312c30783330322c30783330302c307863322c,
  0x202020203078653634332c307834312c30783330322c30783330392c307865322c3078653634332c307836312c30783330322c30783330392c307863322c3078653634332c307834312c30783330322c30783330332c307865322c3078653634332c,
  0x20202020307836312c30783330322c30783330332c3078316561302c3078653634332c307834312c30783332332c30783330322c3078316561312c3078653634332c307836312c30783332332c30783330322c30783130322c3078653634332c307834312c,
  0x2020202030783330362c30783330312c30783130332c3078653634332c307836312c30783330362c30783330312c30783130322c3078653634332c307834312c30783330362c30783330302c30783130332c3078653634332c307836312c30783330362c,
  0x2020202030783330302c30783130322c3078653634332c307834312c30783330362c30783330392c30783130332c3078653634332c307836312c30783330362c30783330392c30783130322c3078653634332c307834312c30783330362c30783330332c,
  0x2020202030783130332c3078653634332c307836312c30783330362c30783330332c3078316561302c3078653634332c307834312c30783332332c30783330362c3078316561312c3078653634332c307836312c30783332332c30783330362c3078653630322c,
  0x20202020307834352c30783330392c3078653630322c307836352c30783330392c3078653630322c307834352c30783330332c3078653630322c307836352c30783330332c307863612c3078653634332c307834352c30783330322c30783330312c,
  0x20202020307865612c3078653634332c307836352c30783330322c30783330312c307863612c3078653634332c307834352c30783330322c30783330302c307865612c3078653634332c307836352c30783330322c30783330302c307863612c,
  0x202020203078653634332c307834352c30783330322c30783330392c307865612c3078653634332c307836352c30783330322c30783330392c307863612c3078653634332c307834352c30783330322c30783330332c307865612c3078653634332c,
  0x20202020307836352c30783330322c30783330332c3078316562382c3078653634332c307834352c30783332332c30783330322c3078316562392c3078653634332c307836352c30783332332c30783330322c3078653630322c307834392c30783330392c,
  0x202020203078653630322c307836392c30783330392c3078646330322c307834392c30783332332c3078646330322c307836392c30783332332c3078653630322c307834662c30783330392c3078653630322c307836662c30783330392c307864342c,
  0x202020203078653634332c307834662c30783330322c30783330312c307866342c3078653634332c307836662c30783330322c30783330312c307864342c3078653634332c307834662c30783330322c30783330302c307866342c3078653634332c]

/-- UnicodeData/Norm2NFCData.py:899-1126 the lines. -/
def nfcText9 : List Nat :=
 [0x20202020307836662c30783330322c30783330302c307864342c3078653634332c307834662c30783330322c30783330392c307866342c3078653634332c307836662c30783330322c30783330392c307864342c3078653634332c307834662c,
  0x2020202030783330322c30783330332c307866342c3078653634332c307836662c30783330322c30783330332c3078316563632c3078653634332c307834662c30783332332c30783330322c3078316563642c3078653634332c307836662c30783332332c,
  0x2020202030783330322c30783161302c3078653634332c307834662c30783331622c30783330312c30783161312c3078653634332c307836662c30783331622c30783330312c30783161302c3078653634332c307834662c30783331622c30783330302c,
  0x2020202030783161312c3078653634332c307836662c30783331622c30783330302c30783161302c3078653634332c307834662c30783331622c30783330392c30783161312c3078653634332c307836662c30783331622c30783330392c30783161302c,
  0x202020203078653634332c307834662c30783331622c30783330332c30783161312c3078653634332c307836662c30783331622c30783330332c30783161302c3078646334332c307834662c30783331622c30783332332c30783161312c3078646334332c,
  0x20202020307836662c30783331622c30783332332c3078646330322c307835352c30783332332c3078646330322c307837352c30783332332c3078653630322c307835352c30783330392c3078653630322c307837352c30783330392c30783161662c,
  0x202020203078653634332c307835352c30783331622c30783330312c30783162302c3078653634332c307837352c30783331622c30783330312c30783161662c3078653634332c307835352c30783331622c30783330302c30783162302c3078653634332c,
  0x20202020307837352c30783331622c30783330302c30783161662c3078653634332c307835352c30783331622c30783330392c30783162302c3078653634332c307837352c30783331622c30783330392c30783161662c3078653634332c307835352c,
  0x2020202030783331622c30783330332c30783162302c3078653634332c307837352c30783331622c30783330332c30783161662c3078646334332c307835352c30783331622c30783332332c30783162302c3078646334332c307837352c30783331622c,
  0x2020202030783332332c3078653630322c307835392c30783330302c3078653630322c307837392c30783330302c3078646330322c307835392c30783332332c3078646330322c307837392c30783332332c3078653630322c307835392c30783330392c,
  0x202020203078653630322c307837392c30783330392c3078653630322c307835392c30783330332c3078653630322c307837392c30783330332c3078316631302c3078653634332c30783362352c30783331332c30783330302c3078316631312c3078653634332c,
  0x2020202030783362352c30783331342c30783330302c3078316631302c3078653634332c30783362352c30783331332c30783330312c3078316631312c3078653634332c30783362352c30783331342c30783330312c3078316631382c3078653634332c30783339352c,
  0x2020202030783331332c30783330302c3078316631392c3078653634332c30783339352c30783331342c30783330302c3078316631382c3078653634332c30783339352c30783331332c30783330312c3078316631392c3078653634332c30783339352c30783331342c,
  0x2020202030783330312c3078316633302c3078653634332c30783362392c30783331332c30783330302c3078316633312c3078653634332c30783362392c30783331342c30783330302c3078316633302c3078653634332c30783362392c30783331332c30783330312c,
  0x202020203078316633312c3078653634332c30783362392c30783331342c30783330312c3078316633302c3078653634332c30783362392c30783331332c30783334322c3078316633312c3078653634332c30783362392c30783331342c30783334322c3078316633382c,
  0x202020203078653634332c30783339392c30783331332c30783330302c3078316633392c3078653634332c30783339392c30783331342c30783330302c3078316633382c3078653634332c30783339392c30783331332c30783330312c3078316633392c3078653634332c,
  0x2020202030783339392c30783331342c30783330312c3078316633382c3078653634332c30783339392c30783331332c30783334322c3078316633392c3078653634332c30783339392c30783331342c30783334322c3078316634302c3078653634332c30783362662c,
  0x2020202030783331332c30783330302c3078316634312c3078653634332c30783362662c30783331342c30783330302c3078316634302c3078653634332c30783362662c30783331332c30783330312c3078316634312c3078653634332c30783362662c30783331342c,
  0x2020202030783330312c3078316634382c3078653634332c30783339662c30783331332c30783330302c3078316634392c3078653634332c30783339662c30783331342c30783330302c3078316634382c3078653634332c30783339662c30783331332c30783330312c,
  0x202020203078316634392c3078653634332c30783339662c30783331342c30783330312c3078316635302c3078653634332c30783363352c30783331332c30783330302c3078316635312c3078653634332c30783363352c30783331342c30783330302c3078316635302c,
  0x202020203078653634332c30783363352c30783331332c30783330312c3078316635312c3078653634332c30783363352c30783331342c30783330312c3078316635302c3078653634332c30783363352c30783331332c30783334322c3078316635312c3078653634332c,
  0x2020202030783363352c30783331342c30783334322c3078316635392c3078653634332c30783361352c30783331342c30783330302c3078316635392c3078653634332c30783361352c30783331342c30783330312c3078316635392c3078653634332c30783361352c,
  0x2020202030783331342c30783334322c3078653630322c30783362352c30783330302c3078653630322c30783362392c30783330302c3078653630322c30783362662c30783330302c3078653630322c30783363352c30783330302c3078316630302c3078663034332c,
  0x2020202030783362312c30783331332c30783334352c3078316630312c3078663034332c30783362312c30783331342c30783334352c3078316630322c30783334352c322c3078663034342c30783362312c30783331332c30783330302c30783334352c,
  0x202020203078316630332c30783334352c322c3078663034342c30783362312c30783331342c30783330302c30783334352c3078316630342c30783334352c322c3078663034342c30783362312c30783331332c30783330312c30783334352c,
  0x202020203078316630352c30783334352c322c3078663034342c30783362312c30783331342c30783330312c30783334352c3078316630362c30783334352c322c3078663034342c30783362312c30783331332c30783334322c30783334352c,
  0x202020203078316630372c30783334352c322c3078663034342c30783362312c30783331342c30783334322c30783334352c3078316630382c3078663034332c30783339312c30783331332c30783334352c3078316630392c3078663034332c30783339312c,
  0x2020202030783331342c30783334352c3078316630612c30783334352c322c3078663034342c30783339312c30783331332c30783330302c30783334352c3078316630622c30783334352c322c3078663034342c30783339312c30783331342c,
  0x2020202030783330302c30783334352c3078316630632c30783334352c322c3078663034342c30783339312c30783331332c30783330312c30783334352c3078316630642c30783334352c322c3078663034342c30783339312c30783331342c,
  0x2020202030783330312c30783334352c3078316630652c30783334352c322c3078663034342c30783339312c30783331332c30783334322c30783334352c3078316630662c30783334352c322c3078663034342c30783339312c30783331342c,
  0x2020202030783334322c30783334352c3078316632302c3078663034332c30783362372c30783331332c30783334352c3078316632312c3078663034332c30783362372c30783331342c30783334352c3078316632322c30783334352c322c3078663034342c,
  0x2020202030783362372c30783331332c30783330302c30783334352c3078316632332c30783334352c322c3078663034342c30783362372c30783331342c30783330302c30783334352c3078316632342c30783334352c322c3078663034342c,
  0x2020202030783362372c30783331332c30783330312c30783334352c3078316632352c30783334352c322c3078663034342c30783362372c30783331342c30783330312c30783334352c3078316632362c30783334352c322c3078663034342c,
  0x2020202030783362372c30783331332c30783334322c30783334352c3078316632372c30783334352c322c3078663034342c30783362372c30783331342c30783334322c30783334352c3078316632382c3078663034332c30783339372c30783331332c,
  0x2020202030783334352c3078316632392c3078663034332c30783339372c30783331342c30783334352c3078316632612c30783334352c322c3078663034342c30783339372c30783331332c30783330302c30783334352c3078316632622c30783334352c,
  0x20202020322c3078663034342c30783339372c30783331342c30783330302c30783334352c3078316632632c30783334352c322c3078663034342c30783339372c30783331332c30783330312c30783334352c3078316632642c30783334352c,
  0x20202020322c3078663034342c30783339372c30783331342c30783330312c30783334352c3078316632652c30783334352c322c3078663034342c30783339372c30783331332c30783334322c30783334352c3078316632662c30783334352c,
  0x20202020322c3078663034342c30783339372c30783331342c30783334322c30783334352c3078316636302c3078663034332c30783363392c30783331332c30783334352c3078316636312c3078663034332c30783363392c30783331342c30783334352c,
  0x202020203078316636322c30783334352c322c3078663034342c30783363392c30783331332c30783330302c30783334352c3078316636332c30783334352c322c3078663034342c30783363392c30783331342c30783330302c30783334352c,
  0x202020203078316636342c30783334352c322c3078663034342c30783363392c30783331332c30783330312c30783334352c3078316636352c30783334352c322c3078663034342c30783363392c30783331342c30783330312c30783334352c,
  0x202020203078316636362c30783334352c322c3078663034342c30783363392c30783331332c30783334322c30783334352c3078316636372c30783334352c322c3078663034342c30783363392c30783331342c30783334322c30783334352c,
  0x202020203078316636382c3078663034332c30783361392c30783331332c30783334352c3078316636392c3078663034332c30783361392c30783331342c30783334352c3078316636612c30783334352c322c3078663034342c30783361392c30783331332c,
  0x2020202030783330302c30783334352c3078316636622c30783334352c322c3078663034342c30783361392c30783331342c30783330302c30783334352c3078316636632c30783334352c322c3078663034342c30783361392c30783331332c,
  0x2020202030783330312c30783334352c3078316636642c30783334352c322c3078663034342c30783361392c30783331342c30783330312c30783334352c3078316636652c30783334352c322c3078663034342c30783361392c30783331332c,
  0x2020202030783334322c30783334352c3078316636662c30783334352c322c3078663034342c30783361392c30783331342c30783334322c30783334352c3078653630322c30783362312c30783330362c3078653630322c30783362312c30783330342c,
  0x202020203078316637302c3078663034332c30783362312c30783330302c30783334352c3078663030322c30783362312c30783334352c30783361632c3078663034332c30783362312c30783330312c30783334352c3078316662362c3078663034332c30783362312c,
  0x2020202030783334322c30783334352c3078653630322c30783339312c30783330362c3078653630322c30783339312c30783330342c3078653630322c30783339312c30783330302c3078663030322c30783339312c30783334352c3078653630322c307861382c,
  0x2020202030783334322c3078316637342c3078663034332c30783362372c30783330302c30783334352c3078663030322c30783362372c30783334352c30783361652c3078663034332c30783362372c30783330312c30783334352c3078316663362c3078663034332c,
  0x2020202030783362372c30783334322c30783334352c3078653630322c30783339352c30783330302c3078653630322c30783339372c30783330302c3078663030322c30783339372c30783334352c3078653630322c3078316662662c30783330302c3078653630322c,
  0x202020203078316662662c30783330312c3078653630322c3078316662662c30783334322c3078653630322c30783362392c30783330362c3078653630322c30783362392c30783330342c30783363612c3078653634332c30783362392c30783330382c30783330302c,
  0x202020203078653630322c30783362392c30783334322c30783363612c3078653634332c30783362392c30783330382c30783334322c3078653630322c30783339392c30783330362c3078653630322c30783339392c30783330342c3078653630322c30783339392c,
  0x2020202030783330302c3078653630322c3078316666652c30783330302c3078653630322c3078316666652c30783330312c3078653630322c3078316666652c30783334322c3078653630322c30783363352c30783330362c3078653630322c30783363352c30783330342c,
  0x2020202030783363622c3078653634332c30783363352c30783330382c30783330302c3078653630322c30783363312c30783331332c3078653630322c30783363312c30783331342c3078653630322c30783363352c30783334322c30783363622c3078653634332c,
  0x2020202030783363352c30783330382c30783334322c3078653630322c30783361352c30783330362c3078653630322c30783361352c30783330342c3078653630322c30783361352c30783330302c3078653630322c30783361312c30783331342c3078653630322c,
  0x20202020307861382c30783330302c3078316637632c3078663034332c30783363392c30783330302c30783334352c3078663030322c30783363392c30783334352c30783363652c3078663034332c30783363392c30783330312c30783334352c3078316666362c,
  0x202020203078663034332c30783363392c30783334322c30783334352c3078653630322c30783339662c30783330302c3078653630322c30783361392c30783330302c3078663030322c30783361392c30783334352c30783130322c3078323139302c30783333382c,
  0x2020202030783130322c3078323139322c30783333382c30783130322c3078323139342c30783333382c30783130322c3078323164302c30783333382c30783130322c3078323164342c30783333382c30783130322c3078323164322c30783333382c30783130322c,
  0x202020203078323230332c30783333382c30783130322c3078323230382c30783333382c30783130322c3078323230622c30783333382c30783130322c3078323232332c30783333382c30783130322c3078323232352c30783333382c30783130322c3078323233632c,
  0x2020202030783333382c30783130322c3078323234332c30783333382c30783130322c3078323234352c30783333382c30783130322c3078323234382c30783333382c30783130322c307833642c30783333382c30783130322c3078323236312c30783333382c,
  0x2020202030783130322c3078323234642c30783333382c30783130322c307833632c30783333382c30783130322c307833652c30783333382c30783130322c3078323236342c30783333382c30783130322c3078323236352c30783333382c30783130322c,
  0x202020203078323237322c30783333382c30783130322c3078323237332c30783333382c30783130322c3078323237362c30783333382c30783130322c3078323237372c30783333382c30783130322c3078323237612c30783333382c30783130322c3078323237622c,
  0x2020202030783333382c30783130322c3078323238322c30783333382c30783130322c3078323238332c30783333382c30783130322c3078323238362c30783333382c30783130322c3078323238372c30783333382c30783130322c3078323261322c30783333382c,
  0x2020202030783130322c3078323261382c30783333382c30783130322c3078323261392c30783333382c30783130322c3078323261622c30783333382c30783130322c3078323237632c30783333382c30783130322c3078323237642c30783333382c30783130322c,
  0x202020203078323239312c30783333382c30783130322c3078323239322c30783333382c30783130322c3078323262322c30783333382c30783130322c3078323262332c30783333382c30783130322c3078323262342c30783333382c30783130322c3078323262352c,
  0x2020202030783333382c30783830322c3078333034622c3078333039392c30783830322c3078333034642c3078333039392c30783830322c3078333034662c3078333039392c30783830322c3078333035312c3078333039392c30783830322c3078333035332c3078333039392c,
  0x2020202030783830322c3078333035352c3078333039392c30783830322c3078333035372c3078333039392c30783830322c3078333035392c3078333039392c30783830322c3078333035622c3078333039392c30783830322c3078333035642c3078333039392c30783830322c,
  0x202020203078333035662c3078333039392c30783830322c3078333036312c3078333039392c30783830322c3078333036342c3078333039392c30783830322c3078333036362c3078333039392c30783830322c3078333036382c3078333039392c30783830322c3078333036662c,
  0x202020203078333039392c30783830322c3078333036662c3078333039612c30783830322c3078333037322c3078333039392c30783830322c3078333037322c3078333039612c30783830322c3078333037352c3078333039392c30783830322c3078333037352c3078333039612c,
  0x2020202030783830322c3078333037382c3078333039392c30783830322c3078333037382c3078333039612c30783830322c3078333037622c3078333039392c30783830322c3078333037622c3078333039612c30783830322c3078333034362c3078333039392c30783830322c,
  0x202020203078333039642c3078333039392c30783830322c3078333061622c3078333039392c30783830322c3078333061642c3078333039392c30783830322c3078333061662c3078333039392c30783830322c3078333062312c3078333039392c30783830322c3078333062332c,
  0x202020203078333039392c30783830322c3078333062352c3078333039392c30783830322c3078333062372c3078333039392c30783830322c3078333062392c3078333039392c30783830322c3078333062622c3078333039392c30783830322c3078333062642c3078333039392c,
  0x2020202030783830322c3078333062662c3078333039392c30783830322c3078333063312c3078333039392c30783830322c3078333063342c3078333039392c30783830322c3078333063362c3078333039392c30783830322c3078333063382c3078333039392c30783830322c,
  0x202020203078333063662c3078333039392c30783830322c3078333063662c3078333039612c30783830322c3078333064322c3078333039392c30783830322c3078333064322c3078333039612c30783830322c3078333064352c3078333039392c30783830322c3078333064352c,
  0x202020203078333039612c30783830322c3078333064382c3078333039392c30783830322c3078333064382c3078333039612c30783830322c3078333064622c3078333039392c30783830322c3078333064622c3078333039612c30783830322c3078333061362c3078333039392c,
  0x2020202030783830322c3078333065662c3078333039392c30783830322c3078333066302c3078333039392c30783830322c3078333066312c3078333039392c30783830322c3078333066322c3078333039392c30783830322c3078333066642c3078333039392c30783730342c,
  0x202020203078643830342c3078646339392c3078643830342c3078646362612c30783730342c3078643830342c3078646339622c3078643830342c3078646362612c30783730342c3078643830342c3078646361352c3078643830342c3078646362612c342c3078643830342c,
  0x202020203078646433312c3078643830342c3078646432372c342c3078643830342c3078646433322c3078643830342c3078646432372c342c3078643830342c3078646634372c3078643830342c3078646633652c342c3078643830342c3078646634372c,
  0x202020203078643830342c3078646635372c342c3078643830352c3078646362392c3078643830352c3078646362612c342c3078643830352c3078646362392c3078643830352c3078646362302c342c3078643830352c3078646362392c3078643830352c,
  0x202020203078646362642c342c3078643830352c3078646462382c3078643830352c3078646461662c342c3078643830352c3078646462392c3078643830352c3078646461662c342c3078643830362c3078646433352c3078643830362c3078646433302c,
  0x20202020312c30783262392c312c307833622c312c307862372c30783730322c30783931352c30783933632c30783730322c30783931362c30783933632c30783730322c30783931372c30783933632c30783730322c,
  0x2020202030783931632c30783933632c30783730322c30783932312c30783933632c30783730322c30783932322c30783933632c30783730322c30783932622c30783933632c30783730322c30783932662c30783933632c30783730322c30783961312c,
  0x2020202030783962632c30783730322c30783961322c30783962632c30783730322c30783961662c30783962632c30783730322c30786133322c30786133632c30783730322c30786133382c30786133632c30783730322c30786131362c30786133632c,
  0x2020202030783730322c30786131372c30786133632c30783730322c30786131632c30786133632c30783730322c30786132622c30786133632c30783730322c30786232312c30786233632c30783730322c30786232322c30786233632c322c,
  0x2020202030786634322c30786662372c322c30786634632c30786662372c322c30786635312c30786662372c322c30786635362c30786662372c322c30786635622c30786662372c322c30786634302c,
  0x2020202030786662352c3078383230322c30786662322c30786638302c3078383230322c30786662332c30786638302c322c30786639322c30786662372c322c30786639632c30786662372c322c30786661312c30786662372c,
  0x20202020322c30786661362c30786662372c322c30786661622c30786662372c322c30786639302c30786662352c312c30783362392c312c307836302c312c307862342c312c,
  0x2020202030783361392c312c307834622c312c3078333030382c312c3078333030392c30783130322c3078326164642c30783333382c312c3078386334382c312c3078363666342c312c3078386563612c,
  0x20202020312c3078386363382c312c3078366564312c312c3078346533322c312c3078353365352c312c3078396639632c312c3078353935312c312c3078393164312c312c3078353538372c,
  0x20202020312c3078353934382c312c3078363166362c312c3078373636392c312c3078376638352c312c3078383633662c312c3078383762612c312c3078383866382c312c3078393038662c,
  0x20202020312c3078366130322c312c3078366431622c312c3078373064392c312c3078373364652c312c3078383433642c312c3078393136612c312c3078393966312c312c3078346538322c,
  0x20202020312c3078353337352c312c3078366230342c312c3078373231622c312c3078383632642c312c3078396531652c312c3078356435302c312c3078366665622c312c3078383563642c,
  0x20202020312c3078383936342c312c3078363263392c312c3078383164382c312c3078383831662c312c3078356563612c312c3078363731372c312c3078366436612c312c3078373266632c,
  0x20202020312c3078393063652c312c3078346638362c312c3078353162372c312c3078353264652c312c3078363463342c312c3078366164332c312c3078373231302c312c3078373665372c,
  0x20202020312c3078383030312c312c3078383630362c312c3078383635632c312c3078386465662c312c3078393733322c312c3078396236662c312c3078396466612c312c3078373838632c,
  0x20202020312c3078373937662c312c3078376461302c312c3078383363392c312c3078393330342c312c3078396537662c312c3078386164362c312c3078353864662c312c3078356630342c,
  0x20202020312c3078376336302c312c3078383037652c312c3078373236322c312c3078373863612c312c3078386363322c312c3078393666372c312c3078353864382c312c3078356336322c,
  0x20202020312c3078366131332c312c3078366464612c312c3078366630662c312c3078376432662c312c3078376533372c312c3078393634622c312c3078353264322c312c3078383038622c,
  0x20202020312c3078353164632c312c3078353163632c312c3078376131632c312c3078376462652c312c3078383366312c312c3078393637352c312c3078386238302c312c3078363263662c,
  0x20202020312c3078386166652c312c3078346533392c312c3078356265372c312c3078363031322c312c3078373338372c312c3078373537302c312c3078353331372c312c3078373866622c,
  0x20202020312c3078346662662c312c3078356661392c312c3078346530642c312c3078366363632c312c3078363537382c312c3078376432322c312c3078353363332c312c3078353835652c,
  0x20202020312c3078373730312c312c3078383434392c312c3078386161612c312c3078366262612c312c3078386662302c312c3078366338382c312c3078363266652c312c3078383265352c,
  0x20202020312c3078363361302c312c3078373536352c312c3078346561652c312c3078353136392c312c3078353163392c312c3078363838312c312c3078376365372c312c3078383236662c,
  0x20202020312c3078386164322c312c3078393163662c312c3078353266352c312c3078353434322c312c3078353937332c312c3078356565632c312c3078363563352c312c3078366666652c,
  0x20202020312c3078373932612c312c3078393561642c312c3078396136612c312c3078396539372c312c3078396563652c312c3078353239622c312c3078363663362c312c3078366237372c,
  0x20202020312c3078386636322c312c3078356537342c312c3078363139302c312c3078363230302c312c3078363439612c312c3078366632332c312c3078373134392c312c3078373438392c,
  0x20202020312c3078373963612c312c3078376466342c312c3078383036662c312c3078386632362c312c3078383465652c312c3078393032332c312c3078393334612c312c3078353231372c,
  0x20202020312c3078353261332c312c3078353462642c312c3078373063382c312c3078383863322c312c3078356563392c312c3078356666352c312c3078363337622c312c3078366261652c,
  0x20202020312c3078376333652c312c3078373337352c312c3078346565342c312c3078353666392c312c3078356462612c312c3078363031632c312c3078373362322c312c3078373436392c,
  0x20202020312c3078376639612c312c3078383034362c312c3078393233342c312c3078393666362c312c3078393734382c312c3078393831382c312c3078346638622c312c3078373961652c,
  0x20202020312c3078393162342c312c3078393662382c312c3078363065312c312c3078346538362c312c3078353064612c312c3078356265652c312c3078356333662c312c3078363539392c,
  0x20202020312c3078373163652c312c3078373634322c312c3078383466632c312c3078393037632c312c3078396638642c312c3078363638382c312c3078393632652c312c3078353238392c,
  0x20202020312c3078363737622c312c3078363766332c312c3078366434312c312c3078366539632c312c3078373430392c312c3078373535392c312c3078373836622c312c3078376431302c,
  0x20202020312c3078393835652c312c3078353136642c312c3078363232652c312c3078393637382c312c3078353032622c312c3078356431392c312c3078366465612c312c3078386632612c,
  0x20202020312c3078356638622c312c3078363134342c312c3078363831372c312c3078393638362c312c3078353232392c312c3078353430662c312c3078356336352c312c3078363631332c,
  0x20202020312c3078363734652c312c3078363861382c312c3078366365352c312c3078373430362c312c3078373565322c312c3078376637392c312c3078383863662c312c3078383865312c,
  0x20202020312c3078393163632c312c3078393665322c312c3078353333662c312c3078366562612c312c3078353431642c312c3078373164302c312c3078373439382c312c3078383566612c,
  0x20202020312c3078393661332c312c3078396335372c312c3078396539662c312c3078363739372c312c3078366463622c312c3078383165382c312c3078376163622c312c3078376232302c,
  0x20202020312c3078376339322c312c3078373263302c312c3078373039392c312c3078386235382c312c3078346563302c312c3078383333362c312c3078353233612c312c3078353230372c,
  0x20202020312c3078356561362c312c3078363264332c312c3078376364362c312c3078356238352c312c3078366431652c312c3078363662342c312c3078386633622c312c3078383834632c,
  0x20202020312c3078393634642c312c3078383938622c312c3078356564332c312c3078353134302c312c3078353563302c312c3078353835612c312c3078363637342c312c3078353164652c,
  0x20202020312c3078373332612c312c3078373663612c312c3078373933632c312c3078373935652c312c3078373936352c312c3078373938662c312c3078393735362c312c3078376362652c,
  0x20202020312c3078376662642c312c3078383631322c312c3078386166382c312c3078393033382c312c3078393066642c312c3078393865662c312c3078393866632c312c3078393932382c,
  0x20202020312c3078396462342c312c3078393064652c312c3078393662372c312c3078346661652c312c3078353065372c312c3078353134642c312c3078353263392c312c3078353265342c,
  0x20202020312c3078353335312c312c3078353539642c312c3078353630362c312c3078353636382c312c3078353834302c312c3078353861382c312c3078356336342c312c3078356336652c,
  0x20202020312c3078363039342c312c3078363136382c312c3078363138652c312c3078363166322c312c3078363534662c312c3078363565322c312c3078363639312c312c3078363838352c,
  0x20202020312c3078366437372c312c3078366531612c312c3078366632322c312c3078373136652c312c3078373232622c312c3078373432322c312c3078373839312c312c3078373933652c,
  0x20202020312c3078373934392c312c3078373934382c312c3078373935302c312c3078373935362c312c3078373935642c312c3078373938642c312c3078373938652c312c3078376134302c,
  0x20202020312c3078376138312c312c3078376263302c312c3078376530392c312c3078376534312c312c3078376637322c312c3078383030352c312c3078383165642c312c3078383237392c,
  0x20202020312c3078383435372c312c3078383931302c312c3078383939362c312c3078386230312c312c3078386233392c312c3078386364332c312c3078386430382c312c3078386662362c,
  0x20202020312c3078393665332c312c3078393766662c312c3078393833622c312c3078363037352c322c3078643835302c3078646565652c312c3078383231382c312c3078346532362c312c,
  0x202020203078353162352c312c3078353136382c312c3078346638302c312c3078353134352c312c3078353138302c312c3078353263372c312c3078353266612c312c3078353535352c312c,
  0x202020203078353539392c312c3078353565322c312c3078353862332c312c3078353934342c312c3078353935342c312c3078356136322c312c3078356232382c312c3078356564322c312c,
  0x202020203078356564392c312c3078356636392c312c3078356661642c312c3078363064382c312c3078363134652c312c3078363130382c312c3078363136302c312c3078363233342c312c,
  0x202020203078363363342c312c3078363431632c312c3078363435322c312c3078363535362c312c3078363731622c312c3078363735362c312c3078366237392c312c3078366564622c312c,
  0x202020203078366563622c312c3078373031652c312c3078373761372c312c3078373233352c312c3078373261662c312c3078373437312c312c3078373530362c312c3078373533622c312c,
  0x202020203078373631642c312c3078373631662c312c3078373664622c312c3078373666342c312c3078373734612c312c3078373734302c312c3078373863632c312c3078376162312c312c,
  0x202020203078376337622c312c3078376435622c312c3078376633652c312c3078383335322c312c3078383365662c312c3078383737392c312c3078383934312c312c3078383938362c312c,
  0x202020203078386162662c312c3078386163622c312c3078386165642c312c3078386238612c312c3078386633382c312c3078393037322c312c3078393139392c312c3078393237362c312c,
  0x202020203078393637632c312c3078393764622c312c3078393830622c312c3078396231322c322c3078643834612c3078646334612c322c3078643834612c3078646334342c322c3078643834632c3078646664352c,
  0x20202020312c3078336239642c312c3078343031382c312c3078343033392c322c3078643835342c3078646534392c322c3078643835372c3078646364302c322c3078643835662c3078646564332c312c,
  0x202020203078396634332c312c3078396638652c30786530322c30783564392c30783562342c3078313130322c30783566322c30783562372c3078313830322c30783565392c30783563312c3078313930322c30783565392c30783563322c3078666234392c,
  0x202020203078313834332c30783565392c30783562632c30783563312c3078666234392c3078313934332c30783565392c30783562632c30783563322c3078313130322c30783564302c30783562372c3078313230322c30783564302c30783562382c3078313530322c,
  0x2020202030783564302c30783562632c3078313530322c30783564312c30783562632c3078313530322c30783564322c30783562632c3078313530322c30783564332c30783562632c3078313530322c30783564342c30783562632c3078313530322c30783564352c,
  0x2020202030783562632c3078313530322c30783564362c30783562632c3078313530322c30783564382c30783562632c3078313530322c30783564392c30783562632c3078313530322c30783564612c30783562632c3078313530322c30783564622c30783562632c,
  0x202020203078313530322c30783564632c30783562632c3078313530322c30783564652c30783562632c3078313530322c30783565302c30783562632c3078313530322c30783565312c30783562632c3078313530322c30783565332c30783562632c3078313530322c,
  0x2020202030783565342c30783562632c3078313530322c30783565362c30783562632c3078313530322c30783565372c30783562632c3078313530322c30783565382c30783562632c3078313530322c30783565392c30783562632c3078313530322c30783565612c,
  0x2020202030783562632c3078313330322c30783564352c30783562392c3078313730322c30783564312c30783562662c3078313730322c30783564622c30783562662c3078313730322c30783565342c30783562662c3078643830342c3078643833342c3078646435372c,
  0x202020203078643833342c3078646436352c3078643830342c3078643833342c3078646435382c3078643833342c3078646436352c3078643833342c3078646435662c3078643833342c3078646436652c342c3078643834362c3078643833342c3078646435382c3078643833342c,
  0x202020203078646436352c3078643833342c3078646436652c3078643833342c3078646435662c3078643833342c3078646436662c342c3078643834362c3078643833342c3078646435382c3078643833342c3078646436352c3078643833342c3078646436662c3078643833342c,
  0x202020203078646435662c3078643833342c3078646437302c342c3078643834362c3078643833342c3078646435382c3078643833342c3078646436352c3078643833342c3078646437302c3078643833342c3078646435662c3078643833342c3078646437312c342c,
  0x202020203078643834362c3078643833342c3078646435382c3078643833342c3078646436352c3078643833342c3078646437312c3078643833342c3078646435662c3078643833342c3078646437322c342c3078643834362c3078643833342c3078646435382c3078643833342c,
  0x202020203078646436352c3078643833342c3078646437322c3078643830342c3078643833342c3078646462392c3078643833342c3078646436352c3078643830342c3078643833342c3078646462612c3078643833342c3078646436352c3078643833342c3078646462622c3078643833342c,
  0x202020203078646436652c342c3078643834362c3078643833342c3078646462392c3078643833342c3078646436352c3078643833342c3078646436652c3078643833342c3078646462632c3078643833342c3078646436652c342c3078643834362c3078643833342c,
  0x202020203078646462612c3078643833342c3078646436352c3078643833342c3078646436652c3078643833342c3078646462622c3078643833342c3078646436662c342c3078643834362c3078643833342c3078646462392c3078643833342c3078646436352c3078643833342c,
  0x202020203078646436662c3078643833342c3078646462632c3078643833342c3078646436662c342c3078643834362c3078643833342c3078646462612c3078643833342c3078646436352c3078643833342c3078646436662c312c3078346533642c312c,
  0x202020203078346533382c312c3078346534312c322c3078643834302c3078646432322c312c3078346636302c312c3078346662622c312c3078353030322c312c3078353037612c312c3078353039392c,
  0x20202020312c3078353063662c312c3078333439652c322c3078643834312c3078646533612c312c3078353135342c312c3078353136342c312c3078353137372c322c3078643834312c3078646431632c,
  0x20202020312c3078333462392c312c3078353136372c312c3078353138642c322c3078643834312c3078646434622c312c3078353139372c312c3078353161342c312c3078346563632c312c,
  0x202020203078353161632c322c3078643836342c3078646464662c312c3078353166352c312c3078353230332c312c3078333464662c312c3078353233622c312c3078353234362c312c3078353237322c,
  0x20202020312c3078353237372c312c3078333531352c312c3078353330352c312c3078353330362c312c3078353334392c312c3078353335612c312c3078353337332c312c3078353337642c,
  0x20202020312c3078353337662c322c3078643834322c3078646532632c312c3078373037302c312c3078353363612c312c3078353364662c322c3078643834322c3078646636332c312c3078353365622c,
  0x20202020312c3078353366312c312c3078353430362c312c3078353439652c312c3078353433382c312c3078353434382c312c3078353436382c312c3078353461322c312c3078353466362c,
  0x20202020312c3078353531302c312c3078353535332c312c3078353536332c312c3078353538342c312c3078353561622c312c3078353562332c312c3078353563322c312c3078353731362c,
  0x20202020312c3078353731372c312c3078353635312c312c3078353637342c312c3078353865652c312c3078353763652c312c3078353766342c312c3078353830642c312c3078353738622c,
  0x20202020312c3078353833322c312c3078353833312c312c3078353861632c322c3078643834352c3078646365342c312c3078353866322c312c3078353866372c312c3078353930362c312c,
  0x202020203078353931612c312c3078353932322c312c3078353936322c322c3078643834352c3078646561382c322c3078643834352c3078646565612c312c3078353965632c312c3078356131622c312c,
  0x202020203078356132372c312c3078353964382c312c3078356136362c312c3078333665652c312c3078333666632c312c3078356230382c312c3078356233652c322c3078643834362c3078646463382c,
  0x20202020312c3078356263332c312c3078356264382c312c3078356266332c322c3078643834362c3078646631382c312c3078356266662c312c3078356330362c312c3078356635332c312c,
  0x202020203078356332322c312c3078333738312c312c3078356336302c312c3078356363302c312c3078356338642c322c3078643834372c3078646465342c312c3078356434332c322c3078643834372c,
  0x202020203078646465362c312c3078356436652c312c3078356436622c312c3078356437632c312c3078356465312c312c3078356465322c312c3078333832662c312c3078356466642c312c,
  0x202020203078356532382c312c3078356533642c312c3078356536392c312c3078333836322c322c3078643834382c3078646438332c312c3078333837632c312c3078356562302c312c3078356562332c,
  0x20202020312c3078356562362c322c3078643836382c3078646639322c312c3078356566652c322c3078643834382c3078646633312c312c3078383230312c312c3078356632322c312c3078333863372c,
  0x20202020322c3078643834632c3078646562382c322c3078643835382c3078646464612c312c3078356636322c312c3078356636622c312c3078333865332c312c3078356639612c312c3078356663642c,
  0x20202020312c3078356664372c312c3078356666392c312c3078363038312c312c3078333933612c312c3078333931632c322c3078643834392c3078646564342c312c3078363063372c312c,
  0x202020203078363134382c312c3078363134632c312c3078363137612c312c3078363162322c312c3078363161342c312c3078363161662c312c3078363164652c312c3078363231302c312c,
  0x202020203078363231622c312c3078363235642c312c3078363262312c312c3078363264342c312c3078363335302c322c3078643834612c3078646630632c312c3078363333642c312c3078363266632c,
  0x20202020312c3078363336382c312c3078363338332c312c3078363365342c322c3078643834612c3078646666312c312c3078363432322c312c3078363363352c312c3078363361392c312c,
  0x202020203078336132652c312c3078363436392c312c3078363437652c312c3078363439642c312c3078363437372c312c3078336136632c312c3078363536632c322c3078643834632c3078646330612c,
  0x20202020312c3078363565332c312c3078363666382c312c3078363634392c312c3078336231392c312c3078336230382c312c3078336165342c312c3078353139322c312c3078353139352c,
  0x20202020312c3078363730302c312c3078363639632c312c3078383061642c312c3078343364392c312c3078363732312c312c3078363735652c312c3078363735332c322c3078643834632c,
  0x202020203078646663332c312c3078336234392c312c3078363766612c312c3078363738352c312c3078363835322c322c3078643834642c3078646336642c312c3078363838652c312c3078363831662c,
  0x20202020312c3078363931342c312c3078363934322c312c3078363961332c312c3078363965612c312c3078366161382c322c3078643834642c3078646561332c312c3078366164622c312c,
  0x202020203078336331382c312c3078366232312c322c3078643834652c3078646361372c312c3078366235342c312c3078336334652c312c3078366237322c312c3078366239662c312c3078366262622c,
  0x20202020322c3078643834652c3078646538642c322c3078643834372c3078646430622c322c3078643834652c3078646566612c312c3078366334652c322c3078643834662c3078646362632c312c3078366362662c,
  0x20202020312c3078366363642c312c3078366336372c312c3078366431362c312c3078366433652c312c3078366436392c312c3078366437382c312c3078366438352c322c3078643834662c,
  0x202020203078646431652c312c3078366433342c312c3078366532662c312c3078366536652c312c3078336433332c312c3078366563372c322c3078643834662c3078646564312c312c3078366466392c,
  0x20202020312c3078366636652c322c3078643834662c3078646635652c322c3078643834662c3078646638652c312c3078366663362c312c3078373033392c312c3078373031622c312c3078336439362c,
  0x20202020312c3078373034612c312c3078373037642c312c3078373037372c312c3078373061642c322c3078643834312c3078646432352c312c3078373134352c322c3078643835302c3078646536332c,
  0x20202020312c3078373139632c322c3078643835302c3078646661622c312c3078373232382c312c3078373235302c322c3078643835312c3078646530382c312c3078373238302c312c3078373239352c,
  0x20202020322c3078643835312c3078646633352c322c3078643835322c3078646331342c312c3078373337612c312c3078373338622c312c3078336561632c312c3078373361352c312c3078336562382c,
  0x20202020312c3078373434372c312c3078373435632c312c3078373438352c312c3078373463612c312c3078336631622c312c3078373532342c322c3078643835332c3078646333362c312c,
  0x202020203078373533652c322c3078643835332c3078646339322c322c3078643834382c3078646439662c312c3078373631302c322c3078643835332c3078646661312c322c3078643835332c3078646662382c322c,
  0x202020203078643835342c3078646334342c312c3078336666632c312c3078343030382c322c3078643835342c3078646366332c322c3078643835342c3078646366322c322c3078643835342c3078646431392c322c,
  0x202020203078643835342c3078646433332c312c3078373731652c312c3078373731662c312c3078373738622c312c3078343034362c312c3078343039362c322c3078643835352c3078646331642c312c,
  0x202020203078373834652c312c3078343065332c322c3078643835352c3078646532362c322c3078643835352c3078646539612c322c3078643835352c3078646563352c312c3078373965622c312c3078343132662c,
  0x20202020312c3078376134612c312c3078376134662c322c3078643835362c3078646437632c322c3078643835362c3078646561372c312c3078376165652c312c3078343230322c322c3078643835362c,
  0x202020203078646661622c312c3078376263362c312c3078376263392c312c3078343232372c322c3078643835372c3078646338302c312c3078376364322c312c3078343261302c312c3078376365382c,
  0x20202020312c3078376365332c312c3078376430302c322c3078643835372c3078646638362c312c3078376436332c312c3078343330312c312c3078376463372c312c3078376530322c312c,
  0x202020203078376534352c312c3078343333342c322c3078643835382c3078646532382c322c3078643835382c3078646534372c312c3078343335392c322c3078643835382c3078646564392c312c3078376637612c,
  0x20202020322c3078643835382c3078646633652c312c3078376639352c312c3078376666612c322c3078643835392c3078646364612c322c3078643835392c3078646432332c312c3078383036302c322c,
  0x202020203078643835392c3078646461382c312c3078383037302c322c3078643834632c3078646635662c312c3078343364352c312c3078383062322c312c3078383130332c312c3078343430622c312c,
  0x202020203078383133652c312c3078356162352c322c3078643835392c3078646661372c322c3078643835392c3078646662352c322c3078643834632c3078646639332c322c3078643834632c3078646639632c312c,
  0x202020203078383230342c312c3078386639652c312c3078343436622c312c3078383239312c312c3078383238622c312c3078383239642c312c3078353262332c312c3078383262312c312c,
  0x202020203078383262332c312c3078383262642c312c3078383265362c322c3078643835612c3078646633632c312c3078383331642c312c3078383336332c312c3078383361642c312c3078383332332c,
  0x20202020312c3078383362642c312c3078383365372c312c3078383335332c312c3078383363612c312c3078383363632c312c3078383364632c322c3078643835622c3078646333362c322c,
  0x202020203078643835622c3078646436622c322c3078643835622c3078646364352c312c3078343532622c312c3078383466312c312c3078383466332c312c3078383531362c322c3078643835632c3078646663612c,
  0x20202020312c3078383536342c322c3078643835622c3078646632632c312c3078343535642c312c3078343536312c322c3078643835622c3078646662312c322c3078643835632c3078646364322c312c,
  0x202020203078343536622c312c3078383635302c312c3078383636372c312c3078383636392c312c3078383661392c312c3078383638382c312c3078383730652c312c3078383665322c312c,
  0x202020203078383732382c312c3078383736622c312c3078383738362c312c3078343564372c312c3078383765312c312c3078383830312c312c3078343566392c312c3078383836302c312c,
  0x202020203078383836332c322c3078643835642c3078646536372c312c3078383864372c312c3078383864652c312c3078343633352c312c3078383866612c312c3078333462622c322c3078643835652c,
  0x202020203078646361652c322c3078643835652c3078646436362c312c3078343662652c312c3078343663372c312c3078386161302c312c3078386335352c322c3078643835662c3078646361382c312c,
  0x202020203078386361622c312c3078386363312c312c3078386431622c312c3078386437372c322c3078643835662c3078646632662c322c3078643834322c3078646330342c312c3078386463622c312c,
  0x202020203078386462632c312c3078386466302c322c3078643834322c3078646364652c312c3078386564342c322c3078643836312c3078646464322c322c3078643836312c3078646465642c312c3078393039342c,
  0x20202020312c3078393066312c312c3078393131312c322c3078643836312c3078646632652c312c3078393131622c312c3078393233382c312c3078393264372c312c3078393264382c312c,
  0x202020203078393237632c312c3078393366392c312c3078393431352c322c3078643836322c3078646666612c312c3078393538622c312c3078343939352c312c3078393562372c322c3078643836332c,
  0x202020203078646437372c312c3078343965362c312c3078393663332c312c3078356462322c312c3078393732332c322c3078643836342c3078646434352c322c3078643836342c3078646531612c312c,
  0x202020203078346136652c312c3078346137362c312c3078393765302c322c3078643836352c3078646330612c312c3078346162322c322c3078643836352c3078646339362c312c3078393832392c322c,
  0x202020203078643836352c3078646462362c312c3078393865322c312c3078346233332c312c3078393932392c312c3078393961372c312c3078393963322c312c3078393966652c312c3078346263652c,
  0x20202020322c3078643836362c3078646633302c312c3078396334302c312c3078396366642c312c3078346363652c312c3078346365642c312c3078396436372c322c3078643836382c3078646363652c,
  0x20202020312c3078346366382c322c3078643836382c3078646430352c322c3078643836382c3078646530652c322c3078643836382c3078646539312c312c3078396562622c312c3078346435362c312c,
  0x202020203078396566392c312c3078396566652c312c3078396630352c312c3078396630662c312c3078396631362c312c3078396633622c322c3078643836392c3078646530302c30783361632c3078653634322c,
  0x2020202030783362312c30783330312c30783361642c3078653634322c30783362352c30783330312c30783361652c3078653634322c30783362372c30783330312c30783361662c3078653634322c30783362392c30783330312c30783363632c3078653634322c,
  0x2020202030783362662c30783330312c30783363642c3078653634322c30783363352c30783330312c30783363652c3078653634322c30783363392c30783330312c30783338362c3078653634322c30783339312c30783330312c30783338382c3078653634322c,
  0x2020202030783339352c30783330312c30783338392c3078653634322c30783339372c30783330312c30783339302c312c3078653634332c30783362392c30783330382c30783330312c30783338612c3078653634322c30783339392c30783330312c,
  0x2020202030783362302c312c3078653634332c30783363352c30783330382c30783330312c30783338652c3078653634322c30783361352c30783330312c30783338352c3078653634322c307861382c30783330312c30783338632c3078653634322c,
  0x2020202030783339662c30783330312c30783338662c3078653634322c30783361392c30783330312c307863352c3078653634322c307834312c30783330612c3078653665362c3078653638312c30783330302c3078653665362c3078653638312c30783330312c,
  0x202020203078653665362c3078653638312c30783331332c3078653665362c3078653638322c30783330382c30783330312c3078383130302c3078383238322c30786637312c30786637322c3078383130302c3078383438322c30786637312c30786637342c3078383130302c,
  0x202020203078383238322c30786637312c30786638302c30]

/-- UnicodeData/Norm2NFCData.py:1127-1129 the lines. -/
def nfcText10 : List Nat :=
 [0x5d,
  0x0,
  0x6e6f726d325f6e66635f646174615f736d616c6c464344203d205b]

/-- UnicodeData/Norm2NFCData.py:1130-1145 the lines. -/
def nfcText11 : List Nat :=
 [0x20202020307863302c307865662c332c307837662c307864662c307837302c307863662c307838372c307863372c307865362c307836362c307834362c307836342c307834362c307836362c307835622c,
  0x20202020307831322c302c302c342c302c302c302c307834332c307832302c322c307836392c307861652c307863322c307863302c307866662c307866662c,
  0x20202020307863302c307837322c307862662c302c302c302c302c302c302c302c307834302c302c307838302c307838382c302c302c,
  0x20202020307866652c302c302c302c302c302c302c302c302c302c302c302c302c302c302c302c,
  0x20202020302c302c302c302c302c302c302c302c302c302c302c302c302c302c302c302c,
  0x20202020302c302c302c302c302c302c302c302c302c302c302c302c302c302c302c302c,
  0x20202020302c302c302c302c302c302c302c302c302c302c302c302c302c302c302c302c,
  0x20202020302c302c302c302c302c302c302c302c302c302c302c302c302c302c302c302c,
  0x20202020302c302c302c302c302c302c302c302c302c302c302c302c302c302c302c302c,
  0x20202020302c302c302c302c302c302c302c302c302c302c302c302c302c302c302c302c,
  0x20202020302c302c302c302c302c302c307839382c302c307863332c307836362c307865302c307838302c302c302c302c302c,
  0x20202020302c302c302c302c302c302c302c302c302c302c302c302c302c302c302c302c,
  0x20202020302c302c302c302c302c302c302c302c302c302c302c302c302c302c302c302c,
  0x20202020302c302c302c302c302c302c302c302c332c302c302c302c302c302c302c302c,
  0x20202020302c302c302c302c302c302c302c302c302c302c302c302c302c302c302c302c,
  0x20202020302c302c302c302c302c302c302c302c302c302c302c372c302c302c322c30]

/-- UnicodeData/Norm2NFCData.py:1146-1146 the lines. -/
def nfcText12 : List Nat :=
 [0x5d]

/-- UnicodeData/Norm2NFCData.py:1-1146 all lines. -/
def nfcText : List Nat :=
 nfcText0 ++ (nfcText1 ++ (nfcText2 ++ (nfcText3 ++ (nfcText4 ++ (nfcText5 ++ (nfcText6 ++ (nfcText7 ++ (nfcText8 ++ (nfcText9 ++ (nfcText10 ++ (nfcText11 ++ (nfcText12))))))))))))

/-- UnicodeData/CasePropsData.py:7-7 `ucase_props_indexes`: 16 entries of 32 bits. -/
def caseIndexes : Table :=
 { size := 16, bits := 32, depth := 0, rows := (l 0x300000000000000000000000000000000000000000000000000000000000000000000000000000000000001720000068300006098000070c200000010) }

/-- UnicodeData/CasePropsData.py:893-918 `ucase_props_unfold`: 370 entries of 16 bits. -/
def caseUnfold : Table :=
 { size := 370, bits := 16, depth := 3, rows := (n (n (n (l 0x1e97000003080074fb06fb050000007400731e9e00df000000730073000001f00000030c006a0000013000000307006900001e960000033100680000fb020000006c00660000fb010000006900660000fb04006c006600660000fb030069006600660000fb0000000066006600001e9a000002be006100000000000300050049)
 (l 0x301030803b900001fd20300030803b91fcc1fc3000003b903b700001fc703b9034203b700001fc60000034203b71fbc1fb3000003b903b100001fb703b9034203b100001fb60000034203b100001fc4000003b903ae00001fb4000003b903ac000001490000006e02bc00001e990000030a007900001e980000030a00770000))
 (n (l 0x34203c900001ff60000034203c900001fe60000034203c500001f560342031303c500001f540301031303c500001f520300031303c500001f500000031303c500001fe70342030803c51fe303b00301030803c500001fe20300030803c500001fe40000031303c100001fd60000034203b900001fd70342030803b91fd30390)
 (l 0x1f041f8b1f83000003b91f031f8a1f82000003b91f021f891f81000003b91f011f881f80000003b91f000000fb1600000576057e0000fb130000057605740000fb170000056d05740000fb150000056b05740000fb140000056505740000058700000582056500001ff4000003b903ce1ffc1ff3000003b903c900001ff703b9)))
 (n (n (l 0x1fa81fa0000003b91f601f9f1f97000003b91f271f9e1f96000003b91f261f9d1f95000003b91f251f9c1f94000003b91f241f9b1f93000003b91f231f9a1f92000003b91f221f991f91000003b91f211f981f90000003b91f201f8f1f87000003b91f071f8e1f86000003b91f061f8d1f85000003b91f051f8c1f84000003b9)
 (l 0x1ff2000003b91f7c00001fc2000003b91f7400001fb2000003b91f701faf1fa7000003b91f671fae1fa6000003b91f661fad1fa5000003b91f651fac1fa4000003b91f641fab1fa3000003b91f631faa1fa2000003b91f621fa91fa1000003b91f61))
 (n (l 0x0)
 (l 0x0)))) }

/-- UnicodeData/Norm2NFCData.py:1129-1146 `norm2_nfc_data_smallFCD`: 256 entries of 8 bits. -/
def nfcSmallFCD : Table :=
 { size := 256, bits := 8, depth := 2, rows := (n (n (l 0xfe00008880004000000000000000bf72c0ffffc0c2ae69022043000000040000125b6646644666e6c787cf70df7f03efc0)
 (l 0x0))
 (n (l 0x80e066c300980000000000000000000000000000000000000000000000000000000000000000000000000000)
 (l 0x20000070000000000000000000000000000000000000000000000000000000000000000000003000000000000000000000000000000000000000000000000))) }

end Verif.Data
