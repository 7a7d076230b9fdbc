import Verif.Lemmas.Trie2EnumOk
import Verif.Model.BidiProps
import Verif.Model.CaseProps
import Verif.Model.CharProps
/-! # The four shipped tries are well formed -/
namespace Verif
open Verif.Data UTrie2
set_option maxRecDepth 100000

theorem nullsOk_of {t : UTrie2} (h1 : ∀ j < 32, t.index.get (t.dataNullOffset + j) = .ok t.initialValue)
    (h2 : ∀ m < 64, t.index.get (t.index2NullOffset + m) = .ok (t.dataNullOffset / 4))
    (h3 : t.dataNullOffset % 4 = 0) : NullsOk t where
  data := fun j hj v hv => by
    rw [h1 j hj] at hv
    simp only [Except.ok.injEq] at hv
    exact hv.symm
  index2 := fun m hm e he => by
    rw [h2 m hm] at he
    simp only [Except.ok.injEq] at he
    omega

namespace Bidi
theorem shape : Shape bidiPropsTrie 3565 512 :=
  ⟨by decide +kernel, by decide +kernel, by decide +kernel, by decide +kernel, by decide +kernel, by decide +kernel⟩
theorem pos_ok : allB (bidiPropsTrie.checkPos 3565 512) 13 0 = true := by decide +kernel
theorem grp_ok : allB (bidiPropsTrie.checkGrp 3565 512) 10 0 = true := by decide +kernel
theorem enum_ok : bidiPropsTrie.EnumOk := enumOk_of_checks shape pos_ok grp_ok
theorem trie_ok : bidiPropsTrie.Ok := enum_ok.ok
theorem nulls_ok : NullsOk bidiPropsTrie := nullsOk_of (by decide +kernel) (by decide +kernel) (by decide +kernel)
end Bidi

namespace Case
theorem shape : Shape casePropsTrie 3286 417 :=
  ⟨by decide +kernel, by decide +kernel, by decide +kernel, by decide +kernel, by decide +kernel, by decide +kernel⟩
theorem pos_ok : allB (casePropsTrie.checkPos 3286 417) 13 0 = true := by decide +kernel
theorem grp_ok : allB (casePropsTrie.checkGrp 3286 417) 10 0 = true := by decide +kernel
theorem enum_ok : casePropsTrie.EnumOk := enumOk_of_checks shape pos_ok grp_ok
theorem trie_ok : casePropsTrie.Ok := enum_ok.ok
theorem nulls_ok : NullsOk casePropsTrie := nullsOk_of (by decide +kernel) (by decide +kernel) (by decide +kernel)
end Case

namespace Char
theorem shape : Shape propsTrie 4531 512 :=
  ⟨by decide +kernel, by decide +kernel, by decide +kernel, by decide +kernel, by decide +kernel, by decide +kernel⟩
theorem pos_ok : allB (propsTrie.checkPos 4531 512) 13 0 = true := by decide +kernel
theorem grp_ok : allB (propsTrie.checkGrp 4531 512) 10 0 = true := by decide +kernel
theorem enum_ok : propsTrie.EnumOk := enumOk_of_checks shape pos_ok grp_ok
theorem trie_ok : propsTrie.Ok := enum_ok.ok
theorem nulls_ok : NullsOk propsTrie := nullsOk_of (by decide +kernel) (by decide +kernel) (by decide +kernel)

theorem vshape : Shape propsVectorTrie 5021 512 :=
  ⟨by decide +kernel, by decide +kernel, by decide +kernel, by decide +kernel, by decide +kernel, by decide +kernel⟩
theorem vpos_ok : allB (propsVectorTrie.checkPos 5021 512) 13 0 = true := by decide +kernel
theorem vgrp_ok : allB (propsVectorTrie.checkGrp 5021 512) 10 0 = true := by decide +kernel
theorem venum_ok : propsVectorTrie.EnumOk := enumOk_of_checks vshape vpos_ok vgrp_ok
theorem vtrie_ok : propsVectorTrie.Ok := venum_ok.ok
theorem vnulls_ok : NullsOk propsVectorTrie := nullsOk_of (by decide +kernel) (by decide +kernel) (by decide +kernel)
end Char

end Verif
