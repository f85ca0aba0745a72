import Verif.Lemmas.XmlText
/- Lemmas for C77: attributes, comments, instructions, directives, tokens. -/
namespace Texted
open Spec

/-! ### Attributes -/

/-- The attributes as the program has them, and as they are written. -/
def SameAttrs (l : List (XName × Bytes)) (w : List (Bytes × Bytes)) : Prop :=
  w.map (fun a => (splitName a.1, a.2)) = l.map (fun a => (some a.1, a.2))

/-- How a start tag ends. -/
def tagEnd (e : Bool) : Bytes := if e then [47, 62] else [62]

theorem blank_nil : White [] := fun _ h => absurd h List.not_mem_nil

theorem not_blank_of_name {b : UInt8} (h : NameByte b) : ¬ White [b] := fun hb => space_not_name hb h

theorem tagName_head {x : XmlExt} {n : Bytes} (h : TagName x n) : ∃ b m, n = b :: m ∧ NameByte b := by
  obtain ⟨h1, h2⟩ := name_bytes h.1
  cases n with
  | nil => exact absurd rfl h1
  | cons b m => exact ⟨b, m, rfl, h2 b (by simp)⟩

theorem stops_blank {sp : Bytes} (h : White sp) {b : UInt8} (hb : ¬ NameByte b) (r : Bytes) : Stops (sp ++ b :: r) := by
  cases sp with
  | nil => exact ⟨b, r, rfl, hb⟩
  | cons a sp =>
    refine ⟨a, sp ++ b :: r, rfl, space_not_name ?_⟩
    intro c hc
    simp only [List.mem_singleton] at hc
    exact h c (by simp [hc])

theorem xmlAttrs_sound (x : XmlExt) : ∀ f s l e r, xmlAttrs x f s = some (l, e, r) →
    ∃ u w, s = u ++ tagEnd e ++ r ∧ Attributes x u w ∧ SameAttrs l w := by
  intro f
  induction f with
  | zero => intro s l e r h; cases h
  | succ f ih =>
    intro s l e r h
    obtain ⟨sp, hsp, hs, hh⟩ := skipSpace_inv s
    rw [xmlAttrs] at h
    split at h
    · next r' heq =>
      simp only [Option.some.injEq, Prod.mk.injEq] at h
      obtain ⟨rfl, rfl, rfl⟩ := h
      exact ⟨sp, [], by rw [hs, heq]; simp [tagEnd], .nil hsp, rfl⟩
    · next r' heq =>
      simp only [Option.some.injEq, Prod.mk.injEq] at h
      obtain ⟨rfl, rfl, rfl⟩ := h
      exact ⟨sp, [], by rw [hs, heq]; simp [tagEnd], .nil hsp, rfl⟩
    · next s1 _ _ =>
      split at h
      · cases h
      · next q r1 hx =>
        obtain ⟨n, hn, htn, hsn, hst⟩ := (xmlNsName_iff _ _ _ _).1 hx
        obtain ⟨sp1, hsp1, hs1, _⟩ := skipSpace_inv r1
        split at h
        · next r2 heq =>
          obtain ⟨sp2, hsp2, hs2, _⟩ := skipSpace_inv r2
          split at h
          · next qq r3 heq' =>
            by_cases hq : qq = 34 ∨ qq = 39
            · rw [if_pos hq] at h
              split at h
              · cases h
              · next v r4 ht =>
                obtain ⟨u, hu, hc, hl⟩ := (xmlText_quoted hq).1 ht
                split at h
                · cases h
                · next l' e' r5 ha =>
                  simp only [Option.some.injEq, Prod.mk.injEq] at h
                  obtain ⟨rfl, rfl, rfl⟩ := h
                  obtain ⟨u', w', h1, h2, h3⟩ := ih _ _ _ _ ha
                  refine ⟨sp ++ n ++ sp1 ++ 61 :: sp2 ++ qq :: u ++ qq :: u', (n, v) :: w', ?_, .cons hsp htn hsp1 hsp2 hq hc hl h2, ?_⟩
                  · rw [hs, hn, hs1, heq, hs2, heq', hu, h1]; simp
                  · unfold SameAttrs at h3 ⊢
                    simp [h3, hsn]
            · rw [if_neg hq] at h; cases h
          · cases h
        · cases h

theorem xmlAttrs_complete (x : XmlExt) {u : Bytes} {w : List (Bytes × Bytes)} (h : Attributes x u w) (e : Bool) (r : Bytes) :
    ∃ l, SameAttrs l w ∧ ∀ f, u.length < f → xmlAttrs x f (u ++ tagEnd e ++ r) = some (l, e, r) := by
  induction h with
  | @nil sp hsp =>
    refine ⟨[], rfl, fun f hf => ?_⟩
    obtain ⟨f, rfl⟩ : ∃ g, f = g + 1 := ⟨f - 1, by omega⟩
    rw [xmlAttrs, List.append_assoc, skipSpace_append hsp]
    cases e
    · have : skipSpace (tagEnd false ++ r) = 62 :: r := skipSpace_stop (by rw [blank_one]; decide) r
      rw [this]; rfl
    · have : skipSpace (tagEnd true ++ r) = 47 :: 62 :: r := skipSpace_stop (by rw [blank_one]; decide) (62 :: r)
      rw [this]; rfl
  | @cons sp n sp1 sp2 q v t s w hsp hn hsp1 hsp2 hq hv ht _ ih =>
    obtain ⟨l, hl, hf⟩ := ih
    obtain ⟨qn, hqn⟩ := splitName_exists hn.2
    refine ⟨(qn, t) :: l, ?_, fun f hlen => ?_⟩
    · unfold SameAttrs at hl ⊢; simp [hl, hqn]
    · obtain ⟨f, rfl⟩ : ∃ g, f = g + 1 := ⟨f - 1, by omega⟩
      have e0 : sp ++ n ++ sp1 ++ 61 :: sp2 ++ q :: v ++ q :: s ++ tagEnd e ++ r
          = sp ++ (n ++ (sp1 ++ 61 :: (sp2 ++ q :: (v ++ q :: (s ++ tagEnd e ++ r))))) := by simp
      generalize hR : v ++ q :: (s ++ tagEnd e ++ r) = R at e0
      have e1 : skipSpace (n ++ (sp1 ++ 61 :: (sp2 ++ q :: R))) = n ++ (sp1 ++ 61 :: (sp2 ++ q :: R)) := by
        obtain ⟨b, m, rfl, hb⟩ := tagName_head hn
        exact skipSpace_stop (not_blank_of_name hb) _
      have hx : xmlNsName x (n ++ (sp1 ++ 61 :: (sp2 ++ q :: R))) = some (qn, sp1 ++ 61 :: (sp2 ++ q :: R)) :=
        (xmlNsName_iff _ _ _ _).2 ⟨n, rfl, hn, hqn, stops_blank hsp1 (by unfold NameByte; decide) _⟩
      have e2 : skipSpace (sp1 ++ 61 :: (sp2 ++ q :: R)) = 61 :: (sp2 ++ q :: R) := by
        rw [skipSpace_append hsp1, skipSpace_stop (by rw [blank_one]; decide)]
      have e3 : skipSpace (sp2 ++ q :: R) = q :: R := by
        rw [skipSpace_append hsp2, skipSpace_stop (by rw [blank_one]; rcases hq with rfl | rfl <;> decide)]
      have e4 : xmlText (some q) false R = some (t, s ++ tagEnd e ++ r) := (xmlText_quoted hq).2 ⟨v, hR.symm, hv, ht⟩
      rw [xmlAttrs, e0, skipSpace_append hsp, e1]
      split
      · next r' heq =>
        obtain ⟨b, m, rfl, hb⟩ := tagName_head hn
        simp only [List.cons_append, List.cons.injEq] at heq
        rw [heq.1] at hb
        exact absurd hb (by unfold NameByte; decide)
      · next r' heq =>
        obtain ⟨b, m, rfl, hb⟩ := tagName_head hn
        simp only [List.cons_append, List.cons.injEq] at heq
        rw [heq.1] at hb
        exact absurd hb (by unfold NameByte; decide)
      · rw [hx]
        simp only [e2, e3, if_pos hq, e4]
        rw [hf f (by simp at hlen; omega)]

/-! ### Comments, instructions, directives -/

theorem skipComment_gen (s : Bytes) : ∀ b0 b1 r, skipComment b0 b1 s = some r ↔
    ∃ u p, s = u ++ 62 :: r ∧ b0 :: b1 :: u = p ++ [45, 45] ∧ ¬ OccursIn (b! "--") (p ++ [45]) := by
  have two : ∀ (a : UInt8) (t : Bytes), OccursIn (b! "--") (a :: t) ↔ (a = 45 ∧ t.head? = some 45) ∨ OccursIn (b! "--") t := by
    intro a t
    rw [occurs_cons]
    refine or_congr ?_ Iff.rfl
    cases t with
    | nil => simp [List.prefix_iff_eq_take]
    | cons b t => simp [List.cons_prefix_cons, eq_comm]
  have one : ¬ OccursIn (b! "--") [45] := by
    rw [two]; rintro (⟨_, h⟩ | h)
    · simp at h
    · exact occurs_nil (by simp) h
  induction s with
  | nil =>
    intro b0 b1 r
    simp [skipComment]
  | cons b s ih =>
    intro b0 b1 r
    rw [skipComment]
    by_cases c : b0 = 45 ∧ b1 = 45
    · rw [if_pos c]
      obtain ⟨rfl, rfl⟩ := c
      constructor
      · intro h
        by_cases hb : b = 62
        · rw [if_pos hb] at h
          cases h
          exact ⟨[], [], by rw [hb]; rfl, rfl, one⟩
        · rw [if_neg hb] at h; cases h
      · rintro ⟨u, p, h1, h2, h3⟩
        cases u with
        | nil =>
          simp only [List.nil_append, List.cons.injEq] at h1
          rw [if_pos h1.1, h1.2]
        | cons a u =>
          exfalso
          cases p with
          | nil => simp at h2
          | cons a' p =>
            simp only [List.cons_append, List.cons.injEq] at h2
            apply h3
            rw [List.cons_append, two]
            refine .inl ⟨h2.1.symm, ?_⟩
            cases p with
            | nil => rfl
            | cons a'' p => simp only [List.cons_append, List.cons.injEq] at h2; simp [← h2.2.1]
    · rw [if_neg c, ih]
      constructor
      · rintro ⟨u, p, rfl, h2, h3⟩
        refine ⟨b :: u, b0 :: p, rfl, by rw [h2]; rfl, ?_⟩
        rw [List.cons_append, two]
        rintro (⟨e1, e2⟩ | h)
        · refine c ⟨e1, ?_⟩
          cases p with
          | nil => simp only [List.nil_append, List.cons.injEq] at h2; exact h2.1
          | cons a p =>
            simp only [List.cons_append, List.cons.injEq] at h2
            simp only [List.cons_append, List.head?_cons, Option.some.injEq] at e2
            rw [h2.1, e2]
        · exact h3 h
      · rintro ⟨u, p, h1, h2, h3⟩
        cases u with
        | nil =>
          cases p with
          | nil => simp only [List.nil_append, List.cons.injEq, and_true] at h2; exact absurd h2 c
          | cons a p => exact absurd (congrArg List.length h2) (by simp)
        | cons a u =>
          simp only [List.cons_append, List.cons.injEq] at h1
          obtain ⟨rfl, h1⟩ := h1
          cases p with
          | nil => simp at h2
          | cons a p =>
            simp only [List.cons_append, List.cons.injEq] at h2
            refine ⟨u, p, h1, h2.2, fun h => h3 ?_⟩
            rw [List.cons_append, two]
            exact .inr h

theorem skipComment_iff {s r : Bytes} : skipComment 0 0 s = some r ↔ ∃ c, s = c ++ b! "-->" ++ r ∧ ¬ OccursIn (b! "--") (c ++ b! "-") := by
  have zero : ∀ t, OccursIn (b! "--") (0 :: t) ↔ OccursIn (b! "--") t := by
    intro t
    rw [occurs_cons]
    constructor
    · rintro (⟨r, h⟩ | h)
      · simp at h
      · exact h
    · exact fun h => .inr h
  rw [skipComment_gen]
  constructor
  · rintro ⟨u, p, h1, h2, h3⟩
    match p, h2 with
    | [], h2 => simp at h2
    | [a], h2 => simp at h2
    | a :: b :: p, h2 =>
      simp only [List.cons_append, List.cons.injEq] at h2
      obtain ⟨rfl, rfl, rfl⟩ := h2
      exact ⟨p, by rw [h1]; simp, fun h => h3 ((zero _).2 ((zero _).2 h))⟩
  · rintro ⟨c, rfl, h⟩
    exact ⟨c ++ [45, 45], 0 :: 0 :: c, by simp, by simp, fun h' => h ((zero _).1 ((zero _).1 h'))⟩

theorem arrow_three (a b c : UInt8) (s : Bytes) :
    OccursIn (b! "-->") (a :: b :: c :: s) ↔ (a = 45 ∧ b = 45 ∧ c = 62) ∨ OccursIn (b! "-->") (b :: c :: s) := by
  rw [occurs_cons]
  refine or_congr ?_ Iff.rfl
  constructor
  · rintro ⟨r, h⟩
    simp only [List.cons_append, List.cons.injEq] at h
    exact ⟨h.1.symm, h.2.1.symm, h.2.2.1.symm⟩
  · rintro ⟨rfl, rfl, rfl⟩; exact ⟨s, rfl⟩

theorem skipInner_gen (s : Bytes) : ∀ b0 b1 r, skipInnerComment b0 b1 s = some r ↔
    ∃ u p, s = u ++ 62 :: r ∧ b0 :: b1 :: u = p ++ [45, 45] ∧ ¬ OccursIn (b! "-->") (b0 :: b1 :: u) := by
  have noOcc : ∀ a b : UInt8, ¬ OccursIn (b! "-->") [a, b] := by
    intro a b h
    rw [occurs_cons, occurs_cons] at h
    rcases h with ⟨r, h⟩ | ⟨r, h⟩ | h
    · simp at h
    · simp at h
    · exact occurs_nil (by simp) h
  induction s with
  | nil =>
    intro b0 b1 r
    simp [skipInnerComment]
  | cons b s ih =>
    intro b0 b1 r
    rw [skipInnerComment]
    by_cases c : b0 = 45 ∧ b1 = 45 ∧ b = 62
    · rw [if_pos c]
      obtain ⟨rfl, rfl, rfl⟩ := c
      constructor
      · intro h
        cases h
        exact ⟨[], [], rfl, rfl, noOcc _ _⟩
      · rintro ⟨u, p, h1, h2, h3⟩
        cases u with
        | nil =>
          simp only [List.nil_append, List.cons.injEq] at h1
          rw [h1.2]
        | cons a u =>
          simp only [List.cons_append, List.cons.injEq] at h1
          exact absurd ((arrow_three _ _ _ _).2 (.inl ⟨rfl, rfl, h1.1.symm⟩)) h3
    · rw [if_neg c, ih]
      constructor
      · rintro ⟨u, p, rfl, h2, h3⟩
        refine ⟨b :: u, b0 :: p, rfl, by rw [h2]; rfl, ?_⟩
        rw [arrow_three]
        rintro (h | h)
        · exact c h
        · exact h3 h
      · rintro ⟨u, p, h1, h2, h3⟩
        cases u with
        | nil =>
          simp only [List.nil_append, List.cons.injEq] at h1
          cases p with
          | nil => simp only [List.nil_append, List.cons.injEq, and_true] at h2; exact absurd ⟨h2.1, h2.2, h1.1⟩ c
          | cons a p => exact absurd (congrArg List.length h2) (by simp)
        | cons a u =>
          simp only [List.cons_append, List.cons.injEq] at h1
          obtain ⟨rfl, h1⟩ := h1
          cases p with
          | nil => simp at h2
          | cons a p =>
            simp only [List.cons_append, List.cons.injEq] at h2
            exact ⟨u, p, h1, h2.2, fun h => h3 ((arrow_three _ _ _ _).2 (.inr h))⟩

theorem skipInner_iff {s r : Bytes} :
    skipInnerComment 0 0 s = some r ↔ ∃ c, s = c ++ b! "-->" ++ r ∧ ¬ OccursIn (b! "-->") (c ++ b! "--") := by
  have zero : ∀ t, OccursIn (b! "-->") (0 :: t) ↔ OccursIn (b! "-->") t := by
    intro t
    rw [occurs_cons]
    constructor
    · rintro (⟨r, h⟩ | h)
      · simp at h
      · exact h
    · exact fun h => .inr h
  rw [skipInner_gen]
  constructor
  · rintro ⟨u, p, h1, h2, h3⟩
    match p, h2 with
    | [], h2 => simp at h2
    | [a], h2 => simp at h2
    | a :: b :: p, h2 =>
      simp only [List.cons_append, List.cons.injEq] at h2
      obtain ⟨rfl, rfl, rfl⟩ := h2
      exact ⟨p, by rw [h1]; simp, fun h => h3 ((zero _).2 ((zero _).2 h))⟩
  · rintro ⟨c, rfl, h⟩
    exact ⟨c ++ [45, 45], 0 :: 0 :: c, by simp, by simp, fun h' => h ((zero _).1 ((zero _).1 h'))⟩

theorem ask_two (a b : UInt8) (s : Bytes) : OccursIn (b! "?>") (a :: b :: s) ↔ (a = 63 ∧ b = 62) ∨ OccursIn (b! "?>") (b :: s) := by
  rw [occurs_cons]
  refine or_congr ?_ Iff.rfl
  constructor
  · rintro ⟨r, h⟩
    simp only [List.cons_append, List.cons.injEq] at h
    exact ⟨h.1.symm, h.2.1.symm⟩
  · rintro ⟨rfl, rfl⟩; exact ⟨s, rfl⟩

theorem ask_one (a : UInt8) : ¬ OccursIn (b! "?>") [a] := by
  rw [occurs_cons]
  rintro (⟨r, h⟩ | h)
  · simp at h
  · exact occurs_nil (by simp) h

theorem skipInst_gen (s : Bytes) : ∀ b0 acc d r, skipInst b0 acc s = some (d, r) ↔
    ∃ u p, s = u ++ 62 :: r ∧ b0 :: u = p ++ [63] ∧ ¬ OccursIn (b! "?>") (b0 :: u) ∧ d = ((u.reverse ++ acc).drop 1).reverse := by
  induction s with
  | nil =>
    intro b0 acc d r
    simp [skipInst]
  | cons b s ih =>
    intro b0 acc d r
    rw [skipInst]
    by_cases c : b0 = 63 ∧ b = 62
    · rw [if_pos c]
      obtain ⟨rfl, rfl⟩ := c
      constructor
      · intro h
        simp only [Option.some.injEq, Prod.mk.injEq] at h
        obtain ⟨rfl, rfl⟩ := h
        exact ⟨[], [], rfl, rfl, ask_one _, by simp⟩
      · rintro ⟨u, p, h1, h2, h3, h4⟩
        cases u with
        | nil =>
          simp only [List.nil_append, List.cons.injEq] at h1
          rw [h1.2, h4]; simp
        | cons a u =>
          simp only [List.cons_append, List.cons.injEq] at h1
          exact absurd ((ask_two _ _ _).2 (.inl ⟨rfl, h1.1.symm⟩)) h3
    · rw [if_neg c, ih]
      constructor
      · rintro ⟨u, p, rfl, h2, h3, h4⟩
        refine ⟨b :: u, b0 :: p, rfl, by rw [h2]; rfl, ?_, by rw [h4]; simp⟩
        rw [ask_two]
        rintro (h | h)
        · exact c h
        · exact h3 h
      · rintro ⟨u, p, h1, h2, h3, h4⟩
        cases u with
        | nil =>
          simp only [List.nil_append, List.cons.injEq] at h1
          cases p with
          | nil => simp only [List.nil_append, List.cons.injEq, and_true] at h2; exact absurd ⟨h2, h1.1⟩ c
          | cons a p => exact absurd (congrArg List.length h2) (by simp)
        | cons a u =>
          simp only [List.cons_append, List.cons.injEq] at h1
          obtain ⟨rfl, h1⟩ := h1
          cases p with
          | nil => simp at h2
          | cons a p =>
            simp only [List.cons_append, List.cons.injEq] at h2
            exact ⟨u, p, h1, h2.2, fun h => h3 ((ask_two _ _ _).2 (.inr h)), by rw [h4]; simp⟩

theorem ask_end (c : Bytes) : OccursIn (b! "?>") (c ++ [63]) ↔ OccursIn (b! "?>") c := by
  constructor
  · rintro ⟨a, b, h⟩
    rcases List.eq_nil_or_concat b with rfl | ⟨b', z, rfl⟩
    · have h' : c ++ [63] = (a ++ [63]) ++ [62] := by rw [h]; simp
      have := (List.append_inj' h' rfl).2
      exact absurd this (by decide)
    · have h' : c ++ [63] = (a ++ b! "?>" ++ b') ++ [z] := by rw [h]; simp
      exact ⟨a, b', (List.append_inj' h' rfl).1⟩
  · rintro ⟨a, b, rfl⟩
    exact ⟨a, b ++ [63], by simp⟩

theorem skipInst_iff {s d r : Bytes} : skipInst 0 [] s = some (d, r) ↔ s = d ++ b! "?>" ++ r ∧ ¬ OccursIn (b! "?>") d := by
  have zero : ∀ t, OccursIn (b! "?>") (0 :: t) ↔ OccursIn (b! "?>") t := by
    intro t
    rw [occurs_cons]
    constructor
    · rintro (⟨r, h⟩ | h)
      · simp at h
      · exact h
    · exact fun h => .inr h
  rw [skipInst_gen]
  constructor
  · rintro ⟨u, p, h1, h2, h3, h4⟩
    match p, h2 with
    | [], h2 => simp at h2
    | a :: p, h2 =>
      simp only [List.cons_append, List.cons.injEq] at h2
      obtain ⟨rfl, rfl⟩ := h2
      simp at h4
      subst h4
      exact ⟨by rw [h1]; simp, fun h => h3 ((zero _).2 ((ask_end _).2 h))⟩
  · rintro ⟨rfl, h⟩
    exact ⟨d ++ [63], 0 :: d, by simp, by simp, fun h' => h ((ask_end _).1 ((zero _).1 h')), by simp⟩

/-- What is left of a directive at a depth. -/
def Levels : Nat → Bytes → Bytes → Prop
  | 0, s, r => ∃ i, Balanced i ∧ s = i ++ 62 :: r
  | d + 1, s, r => ∃ i s', Balanced i ∧ s = i ++ 62 :: s' ∧ Levels d s' r

theorem Levels.prepend {w : Bytes} (hw : ∀ j, Balanced j → Balanced (w ++ j)) {d : Nat} {s r : Bytes} (h : Levels d s r) : Levels d (w ++ s) r := by
  cases d with
  | zero => obtain ⟨i, hi, rfl⟩ := h; exact ⟨w ++ i, hw i hi, by simp⟩
  | succ d => obtain ⟨i, s', hi, rfl, hs⟩ := h; exact ⟨w ++ i, s', hw i hi, by simp, hs⟩

theorem skipDirective_quoted {q : UInt8} (hq : q ≠ 0) : ∀ f d s r, skipDirective f q d s = some r →
    ∃ c s', s = c ++ q :: s' ∧ q ∉ c ∧ ∃ g, g < f ∧ skipDirective g 0 d s' = some r := by
  intro f
  induction f with
  | zero => intro d s r h; cases h
  | succ f ih =>
    intro d s r h
    cases s with
    | nil => cases h
    | cons b s =>
      rw [skipDirective.eq_def] at h
      dsimp only at h
      rw [if_neg (fun hh => hq hh.1)] at h
      by_cases hb : b = q
      · rw [if_pos hb] at h
        exact ⟨[], s, by rw [hb]; rfl, List.not_mem_nil, f, by omega, h⟩
      · rw [if_neg hb, if_pos hq] at h
        obtain ⟨c, s', rfl, hc, g, hg, hr⟩ := ih _ _ _ h
        exact ⟨b :: c, s', rfl, by simp [hc, Ne.symm hb], g, by omega, hr⟩

theorem bang_prefix (i s : Bytes) : b! "!--" <+: i ++ 62 :: s ↔ b! "!--" <+: i ++ [62] := by
  constructor
  · rintro ⟨t, h⟩
    match i, h with
    | [], h => simp at h
    | [a], h => simp at h
    | [a, b], h => simp at h
    | a :: b :: c :: i, h =>
      simp only [List.cons_append, List.nil_append, List.cons.injEq] at h
      obtain ⟨rfl, rfl, rfl, _⟩ := h
      exact ⟨i ++ [62], by simp⟩
  · rintro ⟨t, h⟩
    refine ⟨t ++ s, ?_⟩
    rw [← List.append_assoc, h]; simp

theorem skipDirective_sound : ∀ f d s r, skipDirective f 0 d s = some r → Levels d s r := by
  intro f
  induction f using Nat.strongRecOn with
  | ind f ih =>
    intro d s r h
    cases f with
    | zero => cases h
    | succ f =>
      cases s with
      | nil => cases h
      | cons b s =>
        rw [skipDirective.eq_def] at h
        dsimp only at h
        by_cases c1 : (0 : UInt8) = 0 ∧ b = 62 ∧ d = 0
        · rw [if_pos c1] at h
          cases h
          obtain ⟨_, rfl, rfl⟩ := c1
          exact ⟨[], .nil, rfl⟩
        rw [if_neg c1] at h
        by_cases c2 : b = 0
        · rw [if_pos c2] at h
          exact (ih f (by omega) _ _ _ h).prepend (w := [b]) (fun j hj => .byte (by rw [c2]; decide) hj)
        rw [if_neg c2, if_neg (by decide)] at h
        by_cases c3 : b = 39 ∨ b = 34
        · rw [if_pos c3] at h
          obtain ⟨c, s', rfl, hc, g, hg, hr⟩ := skipDirective_quoted (by rcases c3 with rfl | rfl <;> decide) _ _ _ _ h
          have := (ih g (by omega) _ _ _ hr).prepend (w := b :: c ++ [b]) (fun j hj => by
            have := Balanced.quoted (q := b) (c := c) (by rcases c3 with h | h <;> simp [h]) hc hj
            simpa using this)
          simpa using this
        rw [if_neg c3] at h
        by_cases c4 : b = 62
        · rw [if_pos c4] at h
          subst c4
          cases d with
          | zero => exact absurd ⟨rfl, rfl, rfl⟩ c1
          | succ d => exact ⟨[], s, .nil, rfl, ih f (by omega) _ _ _ h⟩
        rw [if_neg c4] at h
        by_cases c5 : b = 60
        · rw [if_pos c5] at h
          subst c5
          split at h
          · next t =>
            split at h
            · cases h
            · next r' hx =>
              obtain ⟨c, rfl, hc⟩ := skipInner_iff.1 hx
              have := (ih f (by omega) _ _ _ h).prepend (w := b! "<!--" ++ c ++ b! "-->") (fun j hj => .comment hc hj)
              simpa using this
          · next hne =>
            obtain ⟨i, s', hi, rfl, hs⟩ := ih f (by omega) _ _ _ h
            have hp : ¬ b! "!--" <+: i ++ [62] := by
              rw [← bang_prefix i s']
              rintro ⟨t, ht⟩
              exact hne t ht.symm
            have := hs.prepend (w := 60 :: i ++ [62]) (fun j hj => by
              have := Balanced.nested hi hp hj
              simpa using this)
            simpa using this
        rw [if_neg c5] at h
        refine (ih f (by omega) _ _ _ h).prepend (w := [b]) (fun j hj => .byte ?_ hj)
        simp only [List.mem_cons, List.not_mem_nil, or_false]
        rintro (e | e | e | e)
        · exact c3 (.inr e)
        · exact c3 (.inl e)
        · exact c5 e
        · exact c4 e

theorem skipDirective_in_quotes {q : UInt8} (hq : q ≠ 0) (c : Bytes) (hc : q ∉ c) (g d : Nat) (s : Bytes) :
    skipDirective (g + (c.length + 1)) q d (c ++ q :: s) = skipDirective g 0 d s := by
  induction c with
  | nil =>
    show skipDirective (g + 1) q d (q :: s) = _
    rw [skipDirective.eq_def]
    dsimp only
    rw [if_neg (fun hh => hq hh.1), if_pos rfl]
  | cons b c ih =>
    have hb : b ≠ q := fun e => hc (by simp [e])
    show skipDirective (g + (c.length + 1) + 1) q d (b :: (c ++ q :: s)) = _
    rw [skipDirective.eq_def]
    dsimp only
    rw [if_neg (fun hh => hq hh.1), if_neg hb, if_pos hq]
    exact ih (fun e => hc (by simp [e]))

theorem skipDirective_complete {i : Bytes} (h : Balanced i) :
    ∃ k, k ≤ i.length ∧ ∀ g d s, skipDirective (g + k) 0 d (i ++ 62 :: s) = skipDirective g 0 d (62 :: s) := by
  induction h with
  | nil => exact ⟨0, by simp, fun g d s => rfl⟩
  | @byte b s hb _ ih =>
    obtain ⟨k, hk, hf⟩ := ih
    simp only [List.mem_cons, List.not_mem_nil, or_false, not_or] at hb
    refine ⟨k + 1, by simp; omega, fun g d s' => ?_⟩
    show skipDirective (g + k + 1) 0 d (b :: (s ++ 62 :: s')) = _
    rw [skipDirective.eq_def]
    dsimp only
    rw [if_neg (fun hh => hb.2.2.2 hh.2.1), ← hf g d s']
    by_cases c2 : b = 0
    · rw [if_pos c2]
    · rw [if_neg c2, if_neg (by decide), if_neg (fun hh => hh.elim hb.2.1 hb.1), if_neg hb.2.2.2, if_neg hb.2.2.1]
  | @quoted q c s hq hc _ ih =>
    obtain ⟨k, hk, hf⟩ := ih
    refine ⟨k + (c.length + 1) + 1, by simp; omega, fun g d s' => ?_⟩
    have h0 : q ≠ 0 := by rcases hq with rfl | rfl <;> decide
    have h62 : q ≠ 62 := by rcases hq with rfl | rfl <;> decide
    have e : q :: c ++ q :: s ++ 62 :: s' = q :: (c ++ q :: (s ++ 62 :: s')) := by simp
    rw [e]
    rw [show g + (k + (c.length + 1) + 1) = g + k + (c.length + 1) + 1 by omega]
    show skipDirective (g + k + (c.length + 1) + 1) 0 d (q :: (c ++ q :: (s ++ 62 :: s'))) = _
    rw [skipDirective.eq_def]
    dsimp only
    rw [if_neg (fun hh => h62 hh.2.1), if_neg h0, if_neg (by decide), if_pos hq.symm, skipDirective_in_quotes h0 c hc, hf]
  | @nested i s _ hp _ ih1 ih2 =>
    obtain ⟨k1, hk1, hf1⟩ := ih1
    obtain ⟨k2, hk2, hf2⟩ := ih2
    refine ⟨k2 + 1 + k1 + 1, by simp; omega, fun g d s' => ?_⟩
    have e : 60 :: i ++ 62 :: s ++ 62 :: s' = 60 :: (i ++ 62 :: (s ++ 62 :: s')) := by simp
    rw [e]
    rw [show g + (k2 + 1 + k1 + 1) = g + k2 + 1 + k1 + 1 by omega]
    show skipDirective (g + k2 + 1 + k1 + 1) 0 d (60 :: (i ++ 62 :: (s ++ 62 :: s'))) = _
    rw [skipDirective.eq_def]
    dsimp only
    rw [if_neg (fun hh => absurd hh.2.1 (by decide)), if_neg (by decide), if_neg (by decide), if_neg (by decide), if_neg (by decide), if_pos rfl]
    split
    · next t ht =>
      exfalso
      apply hp
      rw [← bang_prefix i (s ++ 62 :: s'), ht]
      exact ⟨t, rfl⟩
    · rw [hf1 (g + k2 + 1) (d + 1) (s ++ 62 :: s'), skipDirective.eq_def]
      dsimp only
      rw [if_neg (fun hh => absurd hh.2.2 (by omega)), if_neg (by decide), if_neg (by decide), if_neg (by decide), if_pos rfl]
      exact hf2 g d s'
  | @comment c s hc _ ih =>
    obtain ⟨k, hk, hf⟩ := ih
    refine ⟨k + 1, by simp; omega, fun g d s' => ?_⟩
    have e : b! "<!--" ++ c ++ b! "-->" ++ s ++ 62 :: s' = 60 :: 33 :: 45 :: 45 :: (c ++ b! "-->" ++ (s ++ 62 :: s')) := by simp
    rw [e]
    show skipDirective (g + k + 1) 0 d (60 :: 33 :: 45 :: 45 :: (c ++ b! "-->" ++ (s ++ 62 :: s'))) = _
    rw [skipDirective.eq_def]
    dsimp only
    rw [if_neg (fun hh => absurd hh.2.1 (by decide)), if_neg (by decide), if_neg (by decide), if_neg (by decide), if_neg (by decide), if_pos rfl]
    have hx := (skipInner_iff (r := s ++ 62 :: s')).2 ⟨c, rfl, hc⟩
    simp only [hx]
    exact hf g d s'

theorem skipDirective_iff {s r : Bytes} : skipDirective s.length 0 0 s = some r ↔ ∃ i, Balanced i ∧ s = i ++ 62 :: r := by
  constructor
  · exact skipDirective_sound _ _ _ _
  · rintro ⟨i, hi, rfl⟩
    obtain ⟨k, hk, hf⟩ := skipDirective_complete hi
    obtain ⟨g, hg⟩ : ∃ g, (i ++ 62 :: r).length = g + 1 + k := ⟨i.length + r.length - k, by simp; omega⟩
    rw [hg, hf, skipDirective.eq_def]
    dsimp only
    rw [if_pos ⟨rfl, rfl, rfl⟩]

end Texted
