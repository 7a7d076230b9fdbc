import Verif.Data.Source
import Verif.Data.Syntax
import Verif.Lemmas.PySyntax
/-! # The syntax of the texts of the code modules -/
namespace Verif.PyRun
open Verif.PySyntax Verif.Data
set_option Elab.async false
set_option maxRecDepth 100000

theorem parse_Utilities : parse (textOf Source.Utilities) = some Syntax.Utilities.module := parse_fast (by decide +kernel)

theorem parse_Utrie2 : parse (textOf Source.Utrie2) = some Syntax.Utrie2.module := parse_fast (by decide +kernel)

theorem parse_Characters : parse (textOf Source.Characters) = some Syntax.Characters.module := parse_fast (by decide +kernel)

theorem parse_GeneralCategories : parse (textOf Source.GeneralCategories) = some Syntax.GeneralCategories.module := parse_fast (by decide +kernel)

theorem parse_CharProps : parse (textOf Source.CharProps) = some Syntax.CharProps.module := parse_fast (by decide +kernel)

theorem parse_BidiProps : parse (textOf Source.BidiProps) = some Syntax.BidiProps.module := parse_fast (by decide +kernel)

theorem parse_CaseProps : parse (textOf Source.CaseProps) = some Syntax.CaseProps.module := parse_fast (by decide +kernel)

theorem parse_CPTrie : parse (textOf Source.CPTrie) = some Syntax.CPTrie.module := parse_fast (by decide +kernel)

theorem parse_Normalizer2 : parse (textOf Source.Normalizer2) = some Syntax.Normalizer2.module := parse_fast (by decide +kernel)

theorem parse_UnicodeSet : parse (textOf Source.UnicodeSet) = some Syntax.UnicodeSet.module := parse_fast (by decide +kernel)

theorem parse_CharNames : parse (textOf Source.CharNames) = some Syntax.CharNames.module := parse_fast (by decide +kernel)

end Verif.PyRun
