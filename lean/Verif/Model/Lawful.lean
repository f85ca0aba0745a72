import Verif.Model.Utf8
/-
Assumptions about code outside the repository that some theorems need (each theorem that needs them has
`[LawfulExt]` among its hypotheses). `litExt` in Lemmas/LitExt.lean satisfies them, so they are consistent.
-/
namespace Texted

/-- Documented behaviour of package regexp used by the safety theorems: reported match positions lie inside the
subject and are ordered. -/
class LawfulExt [Ext] : Prop where
  find_bounds : ∀ p re s i j, Ext.compile p = .ok re → re.find s = some (i, j) → i ≤ j ∧ j ≤ s.length
  findAll_bounds : ∀ p re s i j, Ext.compile p = .ok re → (i, j) ∈ re.findAll s → i ≤ j ∧ j ≤ s.length

end Texted
