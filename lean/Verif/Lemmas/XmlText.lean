import Verif.Lemmas.Xml
/- Lemmas for C77: CDATA sections, and whole texts. -/
namespace Texted
open Spec

/-! ### CDATA -/

/-- Verbatim text with the byte before it. -/
def VerbAfter (b1 : UInt8) (u v : Bytes) : Prop :=
  (b1 = 13 ∧ ∃ u', u = 10 :: u' ∧ Verbatim u' v) ∨ ((b1 = 13 → u.head? ≠ some 10) ∧ Verbatim u v)

theorem VerbAfter.cr {u v : Bytes} (h : VerbAfter 13 u v) : Verbatim (13 :: u) (10 :: v) := by
  rcases h with ⟨_, u', rfl, h⟩ | ⟨h1, h⟩
  · exact .crlf h
  · exact .cr (h1 rfl) h

theorem VerbAfter.other {b : UInt8} {u v : Bytes} (hb : b ≠ 13) (h : VerbAfter b u v) : Verbatim u v := by
  rcases h with ⟨h1, _⟩ | ⟨_, h⟩
  · exact absurd h1 hb
  · exact h

theorem cdataLoop_sound : ∀ f b0 b1 acc s t r, textLoop none true f b0 b1 acc s = some (t, r) →
    ∃ u v, s = u ++ 62 :: r ∧ t = ((v.reverse ++ acc).drop 2).reverse ∧ VerbAfter b1 u v ∧ ¬ Occ (b0 :: b1 :: u) ∧ ∃ p, b0 :: b1 :: u = p ++ [93, 93] := by
  have noOcc : ∀ a b : UInt8, ¬ Occ [a, b] := by
    intro a b h
    rw [Occ, occurs_cons, occurs_cons] at h
    rcases h with ⟨r, h⟩ | ⟨r, h⟩ | h
    · simp at h
    · simp at h
    · exact occurs_nil (by simp) h
  intro f
  induction f with
  | zero => intro b0 b1 acc s t r h; cases h
  | succ f ih =>
    intro b0 b1 acc s t r h
    cases s with
    | nil => cases h
    | cons b s =>
      simp only [textLoop, Bool.not_true, Bool.false_eq_true, and_false, if_false, true_and, if_true, reduceCtorEq] at h
      by_cases c1 : b0 = 93 ∧ b1 = 93 ∧ b = 62
      · rw [if_pos c1] at h
        simp only [Option.some.injEq, Prod.mk.injEq] at h
        obtain ⟨rfl, rfl⟩ := h
        exact ⟨[], [], by rw [c1.2.2]; rfl, by simp, .inr ⟨by simp, .nil⟩, noOcc _ _, [], by rw [c1.1, c1.2.1]; rfl⟩
      rw [if_neg c1] at h
      have occ : ∀ {u : Bytes}, ¬ Occ (b1 :: b :: u) → ¬ Occ (b0 :: b1 :: b :: u) := by
        intro u hu ho
        rw [occ_three] at ho
        rcases ho with ho | ho
        · exact c1 ho
        · exact hu ho
      have pre : ∀ {u : Bytes}, (∃ p, b1 :: b :: u = p ++ [93, 93]) → ∃ p, b0 :: b1 :: b :: u = p ++ [93, 93] := by
        rintro u ⟨p, hp⟩; exact ⟨b0 :: p, by rw [hp]; rfl⟩
      by_cases c5 : b = 13
      · rw [if_pos c5] at h
        obtain ⟨u, v, h1, h3, h4, h5, h6⟩ := ih _ _ _ _ _ _ h
        refine ⟨b :: u, 10 :: v, by rw [h1]; rfl, by rw [h3]; simp, .inr ⟨?_, ?_⟩, occ h5, pre h6⟩
        · intro _; rw [c5]; simp
        · rw [c5] at h4 ⊢; exact h4.cr
      rw [if_neg c5] at h
      by_cases c6 : b1 = 13 ∧ b = 10
      · rw [if_pos c6] at h
        obtain ⟨u, v, h1, h3, h4, h5, h6⟩ := ih _ _ _ _ _ _ h
        exact ⟨b :: u, v, by rw [h1]; rfl, h3, .inl ⟨c6.1, u, by rw [c6.2], h4.other c5⟩, occ h5, pre h6⟩
      rw [if_neg c6] at h
      obtain ⟨u, v, h1, h3, h4, h5, h6⟩ := ih _ _ _ _ _ _ h
      refine ⟨b :: u, b :: v, by rw [h1]; rfl, by rw [h3]; simp, .inr ⟨?_, .byte c5 (h4.other c5)⟩, occ h5, pre h6⟩
      intro hb1 hb
      simp only [List.head?_cons, Option.some.injEq] at hb
      exact c6 ⟨hb1, hb⟩

theorem cdataLoop_complete {u v : Bytes} (h : Verbatim u v) (r : Bytes) : ∀ f b0 b1 acc, u.length < f → (b1 = 13 → u.head? ≠ some 10) →
    ¬ Occ (b0 :: b1 :: u) → (∃ p, b0 :: b1 :: u = p ++ [93, 93]) →
    textLoop none true f b0 b1 acc (u ++ 62 :: r) = some (((v.reverse ++ acc).drop 2).reverse, r) := by
  have noStop : ∀ {b0 b1 b : UInt8} {u : Bytes}, ¬ Occ (b0 :: b1 :: b :: u) → ¬ (b0 = 93 ∧ b1 = 93 ∧ b = 62) ∧ ¬ Occ (b1 :: b :: u) := by
    intro b0 b1 b u ho
    exact ⟨fun hc => ho ((occ_three _ _ _ _).2 (.inl hc)), fun ho' => ho ((occ_three _ _ _ _).2 (.inr ho'))⟩
  have pre : ∀ {b0 b1 b : UInt8} {u : Bytes}, (∃ p, b0 :: b1 :: b :: u = p ++ [93, 93]) → ∃ p, b1 :: b :: u = p ++ [93, 93] := by
    rintro b0 b1 b u ⟨p, hp⟩
    cases p with
    | nil => simp at hp
    | cons a p => simp only [List.cons_append, List.cons.injEq] at hp; exact ⟨p, hp.2⟩
  induction h with
  | nil =>
    rintro f b0 b1 acc hf _ _ ⟨p, hp⟩
    obtain ⟨f, rfl⟩ : ∃ g, f = g + 1 := ⟨f - 1, by simp at hf; omega⟩
    have : p = [] := by
      have := congrArg List.length hp
      simp at this
      exact this
    subst this
    simp only [List.nil_append, List.cons.injEq, and_true] at hp
    obtain ⟨rfl, rfl⟩ := hp
    simp [textLoop]
  | @byte b s t h1 _ ih =>
    intro f b0 b1 acc hf hb ho hp
    obtain ⟨f, rfl⟩ : ∃ g, f = g + 1 := ⟨f - 1, by simp at hf; omega⟩
    obtain ⟨n1, n2⟩ := noStop ho
    have n6 : ¬ (b1 = 13 ∧ b = 10) := fun hh => hb hh.1 (by rw [hh.2]; rfl)
    rw [List.cons_append]
    simp only [textLoop, Bool.not_true, Bool.false_eq_true, and_false, if_false, true_and, if_true, reduceCtorEq]
    rw [if_neg n1, if_neg h1, if_neg n6, ih f b1 b (b :: acc) (by simp at hf; omega) (fun e => absurd e h1) n2 (pre hp)]
    simp
  | @cr s t h1 _ ih =>
    intro f b0 b1 acc hf hb ho hp
    obtain ⟨f, rfl⟩ : ∃ g, f = g + 1 := ⟨f - 1, by simp at hf; omega⟩
    obtain ⟨n1, n2⟩ := noStop ho
    rw [List.cons_append]
    simp only [textLoop, Bool.not_true, Bool.false_eq_true, and_false, if_false, true_and, if_true, reduceCtorEq]
    rw [if_neg n1, ih f b1 13 (10 :: acc) (by simp at hf; omega) (fun _ => h1) n2 (pre hp)]
    simp
  | @crlf s t _ ih =>
    intro f b0 b1 acc hf hb ho hp
    obtain ⟨f, rfl⟩ : ∃ g, f = g + 2 := ⟨f - 2, by simp at hf; omega⟩
    obtain ⟨n1, n2⟩ := noStop ho
    obtain ⟨m1, m2⟩ := noStop n2
    rw [List.cons_append, List.cons_append]
    simp only [textLoop, Bool.not_true, Bool.false_eq_true, and_false, if_false, true_and, if_true, reduceCtorEq]
    rw [if_neg n1, if_neg m1,
      ih f 13 10 (10 :: acc) (by simp at hf; omega) (fun e => absurd e (by decide)) m2 (pre (pre hp))]
    simp

/-- Line ends are translated independently of what follows, unless that begins with a line feed. -/
theorem verbatim_append {c t w : Bytes} (hw : w.head? ≠ some 10) (hn : ∀ b ∈ w, b ≠ 13) : Verbatim c t → Verbatim (c ++ w) (t ++ w) := by
  intro h
  induction h with
  | nil =>
    clear hw
    induction w with
    | nil => exact .nil
    | cons b w ih => exact .byte (hn b (by simp)) (ih (fun b hb => hn b (by simp [hb])))
  | byte h1 _ ih => exact .byte h1 ih
  | @cr s t h1 _ ih =>
    refine .cr ?_ ih
    cases s with
    | nil => simpa using hw
    | cons b s => simpa using h1
  | crlf _ ih => exact .crlf ih

theorem verbatim_split {w : Bytes} (hn : ∀ b ∈ w, b ≠ 13 ∧ b ≠ 10) {s v : Bytes} (h : Verbatim s v) : ∀ c, s = c ++ w → ∃ t, v = t ++ w ∧ Verbatim c t := by
  have self : ∀ {w v : Bytes}, (∀ b ∈ w, b ≠ 13 ∧ b ≠ 10) → Verbatim w v → v = w := by
    intro w v hn h
    induction h with
    | nil => rfl
    | byte _ _ ih => rw [ih (fun b hb => hn b (by simp [hb]))]
    | cr _ _ _ => exact absurd rfl (hn 13 (by simp)).1
    | crlf _ _ => exact absurd rfl (hn 13 (by simp)).1
  induction h with
  | nil =>
    intro c hc
    obtain ⟨rfl, rfl⟩ := List.append_eq_nil_iff.1 hc.symm
    exact ⟨[], rfl, .nil⟩
  | @byte b s t h1 h2 ih =>
    intro c hc
    cases c with
    | nil =>
      simp only [List.nil_append] at hc
      have hv : Verbatim w (b :: t) := hc ▸ Verbatim.byte h1 h2
      exact ⟨[], by rw [self hn hv]; rfl, .nil⟩
    | cons b' c =>
      simp only [List.cons_append, List.cons.injEq] at hc
      obtain ⟨rfl, rfl⟩ := hc
      obtain ⟨t', rfl, h3⟩ := ih c rfl
      exact ⟨b :: t', rfl, .byte h1 h3⟩
  | @cr s t h1 h2 ih =>
    intro c hc
    cases c with
    | nil =>
      simp only [List.nil_append] at hc
      exact absurd rfl (hn 13 (by rw [← hc]; simp)).1
    | cons b' c =>
      simp only [List.cons_append, List.cons.injEq] at hc
      obtain ⟨rfl, rfl⟩ := hc
      obtain ⟨t', rfl, h3⟩ := ih c rfl
      refine ⟨10 :: t', rfl, .cr ?_ h3⟩
      cases c with
      | nil => simp
      | cons b c => simpa using h1
  | @crlf s t h2 ih =>
    intro c hc
    cases c with
    | nil =>
      simp only [List.nil_append] at hc
      exact absurd rfl (hn 13 (by rw [← hc]; simp)).1
    | cons b' c =>
      simp only [List.cons_append, List.cons.injEq] at hc
      obtain ⟨rfl, hc⟩ := hc
      cases c with
      | nil =>
        simp only [List.nil_append] at hc
        exact absurd rfl (hn 10 (by rw [← hc]; simp)).2
      | cons b'' c =>
        simp only [List.cons_append, List.cons.injEq] at hc
        obtain ⟨rfl, rfl⟩ := hc
        obtain ⟨t', rfl, h3⟩ := ih c rfl
        exact ⟨10 :: t', rfl, .crlf h3⟩

/-! ### Whole texts -/

theorem xmlText_inv {q : Option UInt8} {cdata : Bool} {s t r : Bytes} :
    xmlText q cdata s = some (t, r) ↔ textLoop q cdata s.length 0 0 [] s = some (t, r) ∧ LegalText t := by
  rw [xmlText]
  cases h : textLoop q cdata s.length 0 0 [] s with
  | none => simp
  | some tr =>
    obtain ⟨t', r'⟩ := tr
    simp only []
    by_cases hc : checkRunes xmlChar t'.length t' = true
    · rw [if_pos hc]
      constructor
      · rintro h'; injection h' with h'; injection h' with h1 h2; subst h1 h2; exact ⟨rfl, (legal_iff _).1 hc⟩
      · exact fun h' => h'.1
    · rw [if_neg hc]
      constructor
      · intro h'; cases h'
      · rintro ⟨h', hl⟩; injection h' with h'; injection h' with h1 h2; subst h1 h2; exact absurd ((legal_iff _).2 hl) hc

theorem occ_zero (u : Bytes) : Occ (0 :: 0 :: u) ↔ Occ u := by rw [occ_skip (by decide), occ_skip (by decide)]

/-- Text between tags. -/
theorem xmlText_piece {s t r : Bytes} : xmlText none false s = some (t, r) ↔
    ∃ u, s = u ++ r ∧ r.head? = some 60 ∧ Chars none u t ∧ ¬ OccursIn (b! "]]>") u ∧ LegalText t := by
  rw [xmlText_inv]
  constructor
  · rintro ⟨h, hl⟩
    obtain ⟨u, v, h1, h2, h3, h4, h5⟩ := textLoop_sound _ _ _ _ _ _ _ _ h
    simp only [List.reverse_nil, List.nil_append] at h3
    subst h3
    exact ⟨u, h1, h2 rfl, h4.other (by decide), fun ho => h5 rfl ((occ_zero u).2 ho), hl⟩
  · rintro ⟨u, rfl, h2, h3, h4, h5⟩
    refine ⟨?_, h5⟩
    have := textLoop_complete (.inl rfl) h3 r (fun _ => h2) (u ++ r).length 0 0 []
      (by cases r with
          | nil => simp at h2
          | cons a r => simp) (fun e => absurd e (by decide)) (fun _ ho => h4 ((occ_zero u).1 ho))
    simpa [TextEnd] using this

/-- Text between quotes. -/
theorem xmlText_quoted {q : UInt8} (hq : q = 34 ∨ q = 39) {s t r : Bytes} : xmlText (some q) false s = some (t, r) ↔
    ∃ u, s = u ++ q :: r ∧ Chars (some q) u t ∧ LegalText t := by
  rw [xmlText_inv]
  constructor
  · rintro ⟨h, hl⟩
    obtain ⟨u, v, h1, h2, h3, h4, h5⟩ := textLoop_sound _ _ _ _ _ _ _ _ h
    simp only [List.reverse_nil, List.nil_append] at h3
    subst h3
    exact ⟨u, h1, h4.other (by decide), hl⟩
  · rintro ⟨u, rfl, h3, h5⟩
    refine ⟨?_, h5⟩
    have := textLoop_complete (.inr (by rcases hq with rfl | rfl <;> simp)) h3 r (fun h => nomatch h) (u ++ q :: r).length 0 0 []
      (by simp) (fun e => absurd e (by decide)) (fun h => nomatch h)
    simpa [TextEnd] using this

/-- The contents of a CDATA section. -/
theorem xmlText_cdata {s t r : Bytes} : xmlText none true s = some (t, r) ↔
    ∃ c, s = c ++ b! "]]>" ++ r ∧ ¬ OccursIn (b! "]]>") (c ++ b! "]]") ∧ Verbatim c t ∧ LegalText t := by
  rw [xmlText_inv]
  have hn : ∀ b ∈ ([93, 93] : Bytes), b ≠ 13 ∧ b ≠ 10 := by decide
  constructor
  · rintro ⟨h, hl⟩
    obtain ⟨u, v, h1, h3, h4, h5, p, hp⟩ := cdataLoop_sound _ _ _ _ _ _ _ h
    obtain ⟨c, rfl⟩ : ∃ c, u = c ++ [93, 93] := by
      match p, hp with
      | [], hp => simp at hp
      | [a], hp => simp at hp
      | a :: b :: p, hp => simp only [List.cons_append, List.cons.injEq] at hp; exact ⟨p, hp.2.2⟩
    obtain ⟨w, rfl, hw⟩ := verbatim_split hn (h4.other (by decide)) c rfl
    simp at h3
    subst h3
    exact ⟨c, by rw [h1]; simp, fun ho => h5 ((occ_zero _).2 ho), hw, hl⟩
  · rintro ⟨c, rfl, h2, h3, h5⟩
    refine ⟨?_, h5⟩
    have := cdataLoop_complete (verbatim_append (w := [93, 93]) (by decide) (fun b hb => (hn b hb).1) h3) r (c ++ b! "]]>" ++ r).length 0 0 []
      (by simp) (fun e => absurd e (by decide)) (fun ho => h2 ((occ_zero _).1 ho)) ⟨0 :: 0 :: c, by simp⟩
    simpa using this

end Texted
