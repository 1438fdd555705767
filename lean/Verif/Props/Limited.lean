import Verif.Proofs.Limited
import Verif.Props.Div
import Verif.Props.Rem
/-!
# Property C92: division and remainder do a bounded amount of work

The only loop of the division whose length is not bounded by the number of units is the correction of the guessed quotient unit.  C71
says that it ends; here: after at most two corrections in a debug build, four in a release build, per quotient unit.
`Spec/Limited.lean` is the division with a limit on the tests of that loop's condition; the theorems say that the limit is invisible.
The operands need not be well-formed: it is enough that their units are below `10^9`.
-/

namespace Fxd
open Spec

namespace Props

/-- **C92** for the division, with any increment and any result buffer. -/
theorem C92_div (m : Mode) {a b : FixedDecimal} (ha : ∀ u ∈ a.lsu, 0 ≤ u ∧ u < 10 ^ 9) (hb : ∀ u ∈ b.lsu, 0 ≤ u ∧ u < 10 ^ 9)
    (res : FixedDecimal) (incr : Int) :
    FixedDecimal.divToK (match m with | .debug => 3 | .release => 5) m a b res incr = FixedDecimal.divTo m a b res incr := by
  have e : (match m with | .debug => 3 | .release => 5) = tests m := by cases m <;> rfl
  rw [e]
  unfold FixedDecimal.divToK FixedDecimal.divTo
  dsimp only
  rw [divAbs_same (fun u hu => by simpa using ha u hu) (fun u hu => by simpa using hb u hu)]

/-- **C92** for the remainder, with any result buffer. -/
theorem C92_rem (m : Mode) {a b : FixedDecimal} (ha : ∀ u ∈ a.lsu, 0 ≤ u ∧ u < 10 ^ 9) (hb : ∀ u ∈ b.lsu, 0 ≤ u ∧ u < 10 ^ 9)
    (res : FixedDecimal) :
    FixedDecimal.remToK (match m with | .debug => 3 | .release => 5) m a b res = FixedDecimal.remTo m a b res := by
  have e : (match m with | .debug => 3 | .release => 5) = tests m := by cases m <;> rfl
  rw [e]
  unfold FixedDecimal.remToK FixedDecimal.remTo
  dsimp only
  rw [remAbs_same (fun u hu => by simpa using ha u hu) (fun u hu => by simpa using hb u hu)]

/-- A case that needs both corrections: `499999999 * 10^18` by `500000000999999999`. -/
def limA : FixedDecimal := ⟨27#8, 0, [0, 0, 499999999, 0, 0, 0, 0, 0, 0]⟩
/-- See `limA`. -/
def limB : FixedDecimal := ⟨18#8, 0, [999999999, 500000000, 0, 0, 0, 0, 0, 0, 0]⟩

/-- The hypotheses are met, the limit for debug builds suffices and a smaller one would not. -/
example : (∀ u ∈ limA.lsu, 0 ≤ u ∧ u < 10 ^ 9) ∧ (∀ u ∈ limB.lsu, 0 ≤ u ∧ u < 10 ^ 9) ∧
    FixedDecimal.divToK 3 .debug limA limB FixedDecimal.zero 0 = .ok ⟨9#8, 0, [999999996, 0, 0, 0, 0, 0, 0, 0, 0]⟩ ∧
    FixedDecimal.divToK 2 .debug limA limB FixedDecimal.zero 0 = .panic .diverges ∧
    FixedDecimal.remToK 3 .debug limA limB FixedDecimal.zero = .ok ⟨10#8, 0, [999999996, 4, 0, 0, 0, 0, 0, 0, 0]⟩ ∧
    FixedDecimal.remToK 2 .debug limA limB FixedDecimal.zero = .panic .diverges := by
  refine ⟨by decide, by decide, ?_, ?_, ?_, ?_⟩
  all_goals decide +kernel

end Props
end Fxd
