import Verif.Fdm.BetterExamples
import Verif.Fdm.PropsSlopes
/-!
# Better rock on inclined reservoirs (C94)

Without target rates the vectorised assembler leaves out the weight of the fluid between cells (C49). Between two heads it then lets the fluid flow towards the higher head if this is the shallower end.
-/
set_option linter.unusedSectionVars false
namespace RF.Fdm
open RF RF.Dims RF.Spec Finset

/-- The well in the shallow cell, at depth 5, has head 17 - 3 * 5 = 2, the one in the deep cell, at depth 7, has head 22 - 3 * 7 = 1. -/
def exTwoEnds : Mdl ℚ := exMdl false 3 [4, 5, 7, 9] none [] [(1, { pwf := some 17, r := some 1 }), (2, { pwf := some 22, r := some 1 })]

/-- The deep end, at depth 9, is opened at head 28 - 3 * 9 = 1, too. -/
def exTwoOpen : Mdl ℚ := exMdl false 3 [4, 5, 7, 9] none [(3, "pressure", 28)] [(1, { pwf := some 17, r := some 1 }), (2, { pwf := some 22, r := some 1 })]

/-- **C94 fails** on a slope with the vectorised assembler: between a well of head 2 in the shallow cell and one of head 1 in the deep cell the fluid is recorded as leaving at the higher head, and when the deep end is
opened at head 1 as well still more of it does. The symbolic assembler lets fluid enter there, and more of it after the deep end was opened, as it should be. -/
theorem C94_vectorised_fails : ∃ (M : GridModel ℚ) (c : Ctx ℚ) (m n : Mdl ℚ), M.Pos ∧ PlainEdge M ∧ M.g.getD ≠ 3 ∧ M.env = .ok c.e ∧ Ready c m ∧ Ready c n ∧ Exact c.lin ∧ c.e.comp = false ∧ MoreOpen m n ∧
    TwoHeads c.e 2 1 m ∧ TwoHeads c.e 2 1 n ∧ (∀ vect, (run c 10 vect 1 0 m (Sol.init m)).2 = .ok () ∧ (run c 10 vect 1 0 n (Sol.init n)).2 = .ok ()) ∧
    feed c.e 2 m (run c 10 true 1 0 m (Sol.init m)).1.2 1 < 0 ∧
    feed c.e 2 n (run c 10 true 1 0 n (Sol.init n)).1.2 1 < feed c.e 2 m (run c 10 true 1 0 m (Sol.init m)).1.2 1 ∧
    0 < feed c.e 2 m (run c 10 false 1 0 m (Sol.init m)).1.2 1 ∧
    feed c.e 2 m (run c 10 false 1 0 m (Sol.init m)).1.2 1 < feed c.e 2 n (run c 10 false 1 0 n (Sol.init n)).1.2 1 :=
  ⟨exM false 3 [4, 5, 7, 9], exC false 3 [4, 5, 7, 9], exTwoEnds, exTwoOpen, exM_pos _ _ _, pM_plain 1, by show g2.getD ≠ 3; decide, exE_env false 3 [4, 5, 7, 9], exMdl_ready (by decide +kernel), exMdl_ready (by decide +kernel),
    cramer_exact, by decide +kernel, moreOpen_of (by decide +kernel), twoHeads_of (by decide +kernel), twoHeads_of (by decide +kernel),
    fun vect => ⟨isOk_unit (by cases vect <;> decide +kernel), isOk_unit (by cases vect <;> decide +kernel)⟩, by decide +kernel, by decide +kernel, by decide +kernel, by decide +kernel⟩

end RF.Fdm
