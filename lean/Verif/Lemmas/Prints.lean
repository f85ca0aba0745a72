import Verif.Lemmas.Proc
import Verif.Spec.Printed
/- Programs that differ only in what they print. -/
namespace Texted
open Spec

/-- The same actions but for texts printed without looking at whether that worked. -/
inductive Alike {α : Type} : Proc α → Proc α → Prop
  | ret {a} : Alike (.ret a) (.ret a)
  | panic : Alike .panic .panic
  | act {a k k'} : (∀ r, Alike (k r) (k' r)) → Alike (.act a k) (.act a k')
  | left {t p q} : Alike p q → Alike (.act (.print t) fun _ => p) q
  | right {t p q} : Alike p q → Alike p (.act (.print t) fun _ => q)

variable {α β : Type}

theorem Alike.refl (p : Proc α) : Alike p p := by
  induction p with
  | ret a => exact .ret
  | panic => exact .panic
  | act a k ih => exact .act ih

theorem Alike.say {p q : Proc α} (h : Alike p q) (c c' : Bool) (t t' : Bytes) : Alike (Texted.say c t p) (Texted.say c' t' q) := by
  have h1 : Alike (Texted.say c t p) q := by
    unfold Texted.say
    split
    · exact .left h
    · exact h
  unfold Texted.say
  split
  · split
    · exact .left (.right h)
    · exact .left h
  · split
    · exact .right h
    · exact h

theorem Alike.bind {p q : Proc α} (h : Alike p q) {f g : α → Proc β} (hf : ∀ a, Alike (f a) (g a)) : Alike (p.bind f) (q.bind g) := by
  induction h with
  | ret => exact hf _
  | panic => exact .panic
  | act _ ih => exact .act ih
  | left _ ih => exact .left ih
  | right _ ih => exact .right ih

theorem actEnds_alike {a : Act} {w w1 v : World} {r : Except Bytes Bytes} (h : ActEnds a w r w1) (hs : SameFiles w v) :
    ∃ v1, ActEnds a v r v1 ∧ SameFiles w1 v1 := by
  obtain ⟨h1, h2⟩ := hs
  cases a with
  | read p =>
    obtain ⟨rfl, h⟩ := h
    exact ⟨v, ⟨rfl, by rw [h1]; exact h⟩, h1, h2⟩
  | stdin =>
    obtain ⟨rfl, h⟩ := h
    exact ⟨{ v with input := [] }, ⟨rfl, by rw [h2]; exact h⟩, h1, rfl⟩
  | print d =>
    rcases h with ⟨rfl, rfl⟩ | ⟨n, e, rfl, rfl⟩
    · exact ⟨_, .inl ⟨rfl, rfl⟩, h1, h2⟩
    · exact ⟨_, .inr ⟨n, e, rfl, rfl⟩, h1, h2⟩
  | write p d =>
    have hp : ∀ x, SameFiles (w.put p x) (v.put p x) := fun x => ⟨by simp only [World.put, h1], h2⟩
    rcases h with ⟨rfl, rfl⟩ | ⟨e, rfl, rfl | ⟨n, hn, rfl⟩⟩
    · exact ⟨_, .inl ⟨rfl, rfl⟩, hp _⟩
    · exact ⟨_, .inr ⟨e, rfl, .inl rfl⟩, h1, h2⟩
    · exact ⟨_, .inr ⟨e, rfl, .inr ⟨n, hn, rfl⟩⟩, hp _⟩

theorem actSees_alike {a : Act} {w w1 v : World} (h : ActSees a w w1) (hs : SameFiles w v) : ∃ v1, ActSees a v v1 ∧ SameFiles w1 v1 := by
  obtain ⟨h1, h2⟩ := hs
  rcases h with rfl | h
  · exact ⟨v, .inl rfl, h1, h2⟩
  · cases a with
    | write p d =>
      obtain ⟨n, hn, rfl⟩ := h
      exact ⟨_, .inr ⟨n, hn, rfl⟩, by simp only [World.put, h1], h2⟩
    | read p => exact h.elim
    | stdin => exact h.elim
    | print d => exact h.elim

theorem print_ends {t : Bytes} {w w1 : World} {r : Except Bytes Bytes} (h : ActEnds (.print t) w r w1) : SameFiles w w1 := by
  rcases h with ⟨rfl, rfl⟩ | ⟨n, e, rfl, rfl⟩ <;> exact ⟨rfl, rfl⟩

theorem Alike.ends {p q : Proc α} (h : Alike p q) {w v w' : World} {r : α} (hs : SameFiles w v) (he : Ends p w r w') :
    ∃ v', Ends q v r v' ∧ SameFiles w' v' := by
  induction h generalizing w v with
  | ret => obtain ⟨rfl, rfl⟩ := ends_ret.1 he; exact ⟨v, ends_ret.2 ⟨rfl, rfl⟩, hs⟩
  | panic => exact absurd he ends_panic
  | act _ ih =>
    obtain ⟨x, w1, h1, h2⟩ := ends_act.1 he
    obtain ⟨v1, h3, hs1⟩ := actEnds_alike h1 hs
    obtain ⟨v', h4, h5⟩ := ih x hs1 h2
    exact ⟨v', ends_act.2 ⟨x, v1, h3, h4⟩, h5⟩
  | left _ ih =>
    obtain ⟨x, w1, h1, h2⟩ := ends_act.1 he
    obtain ⟨e1, e2⟩ := print_ends h1
    exact ih ⟨hs.1.trans e1.symm, hs.2.trans e2.symm⟩ h2
  | right _ ih =>
    obtain ⟨v', h4, h5⟩ := ih (v := { v with out := v.out ++ _ }) ⟨hs.1, hs.2⟩ he
    exact ⟨v', ends_act.2 ⟨.ok [], _, .inl ⟨rfl, rfl⟩, h4⟩, h5⟩

theorem Alike.sees {p q : Proc α} (h : Alike p q) {w v w' : World} (hs : SameFiles w v) (he : Sees p w w') :
    ∃ v', Sees q v v' ∧ SameFiles w' v' := by
  induction h generalizing w v with
  | ret => cases sees_ret.1 he; exact ⟨v, sees_ret.2 rfl, hs⟩
  | panic => cases sees_panic.1 he; exact ⟨v, sees_panic.2 rfl, hs⟩
  | act _ ih =>
    rcases sees_act.1 he with h1 | ⟨x, w1, h1, h2⟩
    · obtain ⟨v1, h3, hs1⟩ := actSees_alike h1 hs
      exact ⟨v1, sees_act.2 (.inl h3), hs1⟩
    · obtain ⟨v1, h3, hs1⟩ := actEnds_alike h1 hs
      obtain ⟨v', h4, h5⟩ := ih x hs1 h2
      exact ⟨v', sees_act.2 (.inr ⟨x, v1, h3, h4⟩), h5⟩
  | left _ ih =>
    rcases sees_act.1 he with (rfl | h1) | ⟨x, w1, h1, h2⟩
    · exact ⟨v, ⟨_, .refl⟩, hs⟩
    · exact h1.elim
    · obtain ⟨e1, e2⟩ := print_ends h1
      exact ih ⟨hs.1.trans e1.symm, hs.2.trans e2.symm⟩ h2
  | right _ ih =>
    obtain ⟨v', h4, h5⟩ := ih (v := { v with out := v.out ++ _ }) ⟨hs.1, hs.2⟩ he
    exact ⟨v', sees_act.2 (.inr ⟨.ok [], _, .inl ⟨rfl, rfl⟩, h4⟩), h5⟩

end Texted
