import Verif.Model.Lawful
import Verif.Lemmas.Index
/- A concrete `Ext`: every pattern is a literal string. It shows that the assumptions of `LawfulExt` are consistent,
and lets concrete programs be run inside Lean. -/
namespace Texted

/-- The literal "regular expression" for `p`. -/
def litRegex (p : Bytes) : Regex where
  find s := (indexOf p s).map fun i => (i, i + p.length)
  findAll s := ((indexOf p s).map fun i => (i, i + p.length)).toList

/-- All patterns are literals, case mapping of non-ASCII runes is the identity. -/
@[instance_reducible] def litExt : Ext where
  f2i _ := 0
  isPrint _ := false
  nameRune _ := false
  upper c := c
  lower c := c
  compile p := .ok (litRegex p)

theorem litExt_lawful : @LawfulExt litExt := by
  have hb : ∀ (p s : Bytes) i j, (indexOf p s).map (fun i => (i, i + p.length)) = some (i, j) → i ≤ j ∧ j ≤ s.length := by
    intro p s i j h
    simp only [Option.map_eq_some_iff, Prod.mk.injEq] at h
    obtain ⟨k, h1, rfl, rfl⟩ := h
    have := (indexOf_some h1).1.le
    omega
  refine @LawfulExt.mk litExt ?_ ?_
  · intro p re s i j hc hf
    cases hc
    exact hb p s i j hf
  · intro p re s i j hc hf
    cases hc
    simp only [litRegex, Option.mem_toList] at hf
    exact hb p s i j hf

end Texted
