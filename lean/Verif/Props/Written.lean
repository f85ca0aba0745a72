import Verif.Spec.Written
import Verif.Props.Literals
/- C79, the script: what everyday scripts do to a text. -/
namespace Texted
open Spec

theorem oneCommand_names {cs r : List Char} (h : ∀ c ∈ cs, nameChar c) (hr : OneCommand r) : OneCommand (cs ++ r) := by
  induction cs with
  | nil => exact hr
  | cons c cs ih =>
    obtain ⟨_, _, _, h1, h2⟩ := h c (by simp)
    exact .char c _ h1 h2 (ih fun d hd => h d (by simp [hd]))

theorem oneCommand_blanks (n : Nat) {r : List Char} (hr : OneCommand r) : OneCommand (List.replicate n ' ' ++ r) := by
  induction n with
  | zero => exact hr
  | succ n ih => exact .char ' ' _ (by decide) (by decide) ih

theorem tokens_blanks (n : Nat) {r : List Char} {ts : List (List Char)} (hr : Tokens r ts) : Tokens (List.replicate n ' ' ++ r) ts := by
  induction n with
  | zero => exact hr
  | succ n ih => exact .blank ' ' _ _ (.inl rfl) ih

theorem numberText_ne_nil {x : F64} : ¬ NumberText [] x := by
  intro h
  have := (parseToken_iff [] (.num x)).2 (.num [] x (by simp [Quoted]) h)
  have e : parseToken (encodeAll []) = .ok (.sym []) := by decide +kernel
  rw [e] at this
  cases this

structure ArgsFacts (r : List Char) (vs : List Value) : Prop where
  start : r = [] ∨ r.head? = some ' '
  one : OneCommand r
  noLine : '\n' ∉ r
  last : ∀ c ∈ r.getLast?, isSpace c = false
  reads : ∃ ts, Tokens r ts ∧ ReadsAll ts vs

theorem args_facts {r : List Char} {vs : List Value} (h : ArgsWritten r vs) : ArgsFacts r vs := by
  induction h with
  | none => exact ⟨.inl rfl, .nil, by simp, by simp, [], .nil, .nil⟩
  | @str n w s r vs hw _ ih =>
    obtain ⟨body, rfl, hb⟩ := hw
    obtain ⟨p1, p2⟩ := litBody_plain hb
    obtain ⟨ts, t1, t2⟩ := ih.reads
    have hword : Word ('"' :: (body ++ ['"'])) := .lit body [] p1 .nil
    refine ⟨.inr rfl, oneCommand_blanks _ ?_, ?_, ?_, ('"' :: (body ++ ['"'])) :: ts, tokens_blanks _ (.word _ _ _ hword (by simp) ?_ t1), ?_⟩
    · simpa using OneCommand.lit body r p1 ih.one
    · have := ih.noLine
      simp only [List.mem_append, List.mem_replicate, List.mem_cons, List.not_mem_nil, or_false, not_or]
      refine ⟨by simp, ⟨by decide, p2, by decide⟩, this⟩
    · intro c hc
      rw [List.getLast?_append, List.getLast?_append] at hc
      cases hl : r.getLast? with
      | none =>
        rw [hl] at hc
        have : c = '"' := by simpa [List.getLast?_cons, eq_comm] using hc
        subst this; decide
      | some y => rw [hl] at hc; cases hc; exact ih.last _ hl
    · intro c hc
      rcases ih.start with h | h
      · rw [h] at hc; cases hc
      · rw [h] at hc; cases hc; exact .inl (.inl rfl)
    · refine .atom _ _ _ _ (by simp) (by simp) (.str _ _ ⟨body, rfl, hb⟩) t2
  | @num n w x r vs hw hx _ ih =>
    obtain ⟨ts, t1, t2⟩ := ih.reads
    have hne : w ≠ [] := by rintro rfl; exact numberText_ne_nil hx
    have hword : Word w := word_of_names hw
    have hnq : ¬ Quoted w := by
      intro hq
      cases w with
      | nil => exact hne rfl
      | cons c w =>
        have : c = '"' := by simpa using hq.1
        exact (hw c (by simp)).2.2.2.1 this
    refine ⟨.inr rfl, oneCommand_blanks _ (oneCommand_names hw ih.one), ?_, ?_, w :: ts, tokens_blanks _ (.word _ _ _ hword hne ?_ t1), ?_⟩
    · have := ih.noLine
      simp only [List.mem_append, List.mem_replicate, not_or]
      exact ⟨by simp, fun h => absurd (hw _ h).1 (by decide), this⟩
    · intro c hc
      rw [List.getLast?_append, List.getLast?_append] at hc
      cases hl : r.getLast? with
      | none =>
        rw [hl] at hc
        cases hl2 : w.getLast? with
        | none => exact absurd (List.getLast?_eq_none_iff.1 hl2) hne
        | some y => rw [hl2] at hc; cases hc; exact (hw _ (List.mem_of_getLast? hl2)).1
      | some y => rw [hl] at hc; cases hc; exact ih.last _ hl
    · intro c hc
      rcases ih.start with h | h
      · rw [h] at hc; cases hc
      · rw [h] at hc; cases hc; exact .inl (.inl rfl)
    · refine .atom _ _ _ _ ?_ ?_ (.num _ _ hnq hx) t2
      · rintro rfl; exact (hw '(' (by simp)).2.1 rfl
      · rintro rfl; exact (hw ')' (by simp)).2.2.1 rfl

theorem trimmed_self {cs : List Char} (hhead : ∀ c ∈ cs.head?, isSpace c = false) (hlast : ∀ c ∈ cs.getLast?, isSpace c = false) : trimmed cs = cs := by
  unfold trimmed
  have e1 : cs.dropWhile isSpace = cs := by
    cases cs with
    | nil => rfl
    | cons c r => rw [List.dropWhile_cons, if_neg (by rw [hhead c (by simp)]; decide)]
  have e2 : cs.reverse.dropWhile isSpace = cs.reverse := by
    cases hr : cs.reverse with
    | nil => rfl
    | cons c r =>
      have : cs.getLast? = some c := by rw [← List.head?_reverse, hr]; rfl
      rw [List.dropWhile_cons, if_neg (by rw [hlast c this]; decide)]
  rw [e1, e2, List.reverse_reverse]

theorem command_facts {cs : List Char} {v : Value} (h : CommandWritten cs v) :
    SegmentReads cs [v] ∧ '\n' ∉ cs ∧ (∀ c ∈ cs.getLast?, isSpace c = false) ∧ cs ≠ [] := by
  obtain @⟨name, r, vs, hne, hn, hx, ha⟩ := h
  have f := args_facts ha
  obtain ⟨ts, t1, t2⟩ := f.reads
  have hhead : ∀ c ∈ (name ++ r).head?, nameChar c := by
    intro c hc
    cases name with
    | nil => exact absurd rfl hne
    | cons d name => cases hc; exact hn _ (by simp)
  have hlast : ∀ c ∈ (name ++ r).getLast?, isSpace c = false := by
    intro c hc
    rw [List.getLast?_append] at hc
    cases hl : r.getLast? with
    | none =>
      rw [hl] at hc
      cases hl2 : name.getLast? with
      | none => exact absurd (List.getLast?_eq_none_iff.1 hl2) hne
      | some y => rw [hl2] at hc; cases hc; exact (hn _ (List.mem_of_getLast? hl2)).1
    | some y => rw [hl] at hc; cases hc; exact f.last _ hl
  have hcs : name ++ r ≠ [] := by simp [hne]
  refine ⟨⟨oneCommand_names hn f.one, .inr ⟨?_, .list (.sym (encodeAll name) :: vs), ?_, rfl⟩⟩, ?_, hlast, hcs⟩
  · rw [trimmed_self (fun c hc => (hhead c hc).1) hlast]; exact hcs
  · rw [trimmed_self (fun c hc => (hhead c hc).1) hlast, CommandReads, if_neg]
    · refine ⟨name :: ts, _, .word _ _ _ (word_of_names hn) hne ?_ t1, .atom _ _ _ _ ?_ ?_ (.sym _ ?_ hx) t2, rfl⟩
      · intro c hc
        rcases f.start with h | h
        · rw [h] at hc; cases hc
        · rw [h] at hc; cases hc; exact .inl (.inl rfl)
      · rintro rfl; exact (hn '(' (by simp)).2.1 rfl
      · rintro rfl; exact (hn ')' (by simp)).2.2.1 rfl
      · intro hq
        cases name with
        | nil => exact hne rfl
        | cons c w =>
          have : c = '"' := by simpa using hq.1
          exact (hn c (by simp)).2.2.2.1 this
    · intro hh; exact (hhead _ hh).2.1 rfl
  · intro hm
    rcases List.mem_append.1 hm with h | h
    · exact absurd (hn _ h).1 (by decide)
    · exact f.noLine h

theorem no_nl_encodeAll {cs : List Char} (h : '\n' ∉ cs) : ∀ x ∈ encodeAll cs, x ≠ nl := by
  intro x hx e
  subst e
  obtain ⟨c, hc, hm⟩ := List.mem_flatMap.1 (show nl ∈ cs.flatMap encodeRune from hx)
  have := mem_encodeRune hm (by decide)
  have : c = '\n' := char_eq_of_toNat this
  exact h (this ▸ hc)

theorem dropCR_encodeAll {cs : List Char} (hlast : ∀ c ∈ cs.getLast?, c ≠ '\r') : dropCR (encodeAll cs) = encodeAll cs := by
  rcases List.eq_nil_or_concat cs with rfl | ⟨r, c, rfl⟩
  · rfl
  · have hc := hlast c (by simp)
    rw [List.concat_eq_append, encodeAll_append, encodeAll_cons, encodeAll_nil, List.append_nil]
    unfold dropCR
    rw [if_neg]
    intro hs
    rw [List.getLast?_append] at hs
    cases hg : (encodeRune c).getLast? with
    | none => exact absurd (List.getLast?_eq_none_iff.1 hg) (encodeRune_ne_nil c)
    | some y =>
      rw [hg] at hs
      simp only [Option.some_or, Option.some.injEq] at hs
      subst hs
      have := mem_encodeRune (List.mem_of_getLast? hg) (by decide)
      have : c = '\r' := char_eq_of_toNat this
      exact hc this

theorem segment_blank {seg : List Char} {p : List Value} (h : SegmentReads seg p) : SegmentReads (' ' :: seg) p := by
  have : trimmed (' ' :: seg) = trimmed seg := by
    unfold trimmed
    rw [List.dropWhile_cons, if_pos (by decide)]
  refine ⟨.char ' ' _ (by decide) (by decide) h.1, ?_⟩
  rw [this]; exact h.2

theorem line_blank {l : List Char} {p : List Value} (h : LineReads l p) : LineReads (' ' :: l) p := by
  cases h with
  | last _ _ h => exact .last _ _ (segment_blank h)
  | more seg rest p q h1 h2 => exact .more (' ' :: seg) rest p q (segment_blank h1) h2

/-- The lines of a written script. -/
theorem script_lines {cs : List Char} {p : List Value} (h : ScriptWritten cs p) (hlen : (encodeAll cs).length < 65536) :
    ∃ l ls p1 p2, splitByte nl (encodeAll cs) = encodeAll l :: ls ∧ (∀ c ∈ l.getLast?, c ≠ '\r') ∧ (encodeAll l).length ≤ (encodeAll cs).length ∧
      LineReads l p1 ∧ LinesRead ls p2 ∧ p = p1 ++ p2 := by
  have empty : SegmentReads [] [] := ⟨.nil, .inl ⟨rfl, rfl⟩⟩
  induction h with
  | none => exact ⟨[], [], [], [], rfl, by simp, by simp, .last _ _ empty, .nil, rfl⟩
  | @last cs v h =>
    obtain ⟨s1, s2, s3, _⟩ := command_facts h
    refine ⟨cs, [], [v], [], splitByte_last nl _ (no_nl_encodeAll s2), ?_, by simp, .last _ _ s1, .nil, rfl⟩
    rintro c hc rfl
    exact absurd (s3 _ hc) (by decide)
  | @next cs v sep r p h hsep _ ih =>
    obtain ⟨s1, s2, s3, _⟩ := command_facts h
    have e : encodeAll (cs ++ sep :: r) = encodeAll cs ++ (encodeRune sep ++ encodeAll r) := by rw [encodeAll_append, encodeAll_cons]
    have hl : (encodeAll (cs ++ sep :: r)).length = (encodeAll cs).length + ((encodeRune sep).length + (encodeAll r).length) := by
      rw [e, List.length_append, List.length_append]
    have hpos : 1 ≤ (encodeRune sep).length := by
      rcases hsep with rfl | rfl <;> decide
    obtain ⟨l, ls, p1, p2, i1, i2, i3, i4, i5, i6⟩ := ih (by omega)
    rcases hsep with rfl | rfl
    · refine ⟨cs ++ ';' :: l, ls, v :: p1, p2, ?_, ?_, ?_, .more cs l [v] p1 s1 i4, i5, by rw [i6]; rfl⟩
      · rw [e]
        obtain ⟨l', ls', h1, h2⟩ := splitByte_append nl (encodeAll cs ++ encodeRune ';') (by
          intro x hx
          rcases List.mem_append.1 hx with hx | hx
          · exact no_nl_encodeAll s2 x hx
          · have : encodeRune ';' = [59] := by decide
            rw [this] at hx
            simp only [List.mem_singleton] at hx; subst hx; decide) (encodeAll r)
        rw [i1] at h1
        cases h1
        rw [← List.append_assoc, h2, encodeAll_append, encodeAll_cons, List.append_assoc]
      · intro c hc
        rw [List.getLast?_append, List.getLast?_cons] at hc
        cases hg : l.getLast? with
        | none => rw [hg] at hc; cases hc; decide
        | some y => rw [hg] at hc; cases hc; exact i2 _ hg
      · rw [hl, encodeAll_append, encodeAll_cons, List.length_append, List.length_append]; omega
    · refine ⟨cs, encodeAll l :: ls, [v], p, ?_, ?_, by omega, .last _ _ s1, ?_, rfl⟩
      · rw [e]
        have : encodeRune '\n' = [nl] := by decide
        rw [this]
        show splitByte nl (encodeAll cs ++ nl :: encodeAll r) = _
        rw [splitByte_line nl _ _ (no_nl_encodeAll s2), i1]
      · rintro c hc rfl
        exact absurd (s3 _ hc) (by decide)
      · rw [i6]
        refine .cons _ _ _ _ (by omega) ?_ i5
        rw [dropCR_encodeAll i2, decodeAll_encodeAll]
        exact i4
  | @blank r p _ ih =>
    have e : encodeAll (' ' :: r) = 32 :: encodeAll r := by rw [encodeAll_cons]; rfl
    have hl : (encodeAll (' ' :: r)).length = (encodeAll r).length + 1 := by rw [e]; rfl
    obtain ⟨l, ls, p1, p2, i1, i2, i3, i4, i5, i6⟩ := ih (by omega)
    have e' : encodeAll (' ' :: l) = 32 :: encodeAll l := by rw [encodeAll_cons]; rfl
    refine ⟨' ' :: l, ls, p1, p2, ?_, ?_, ?_, line_blank i4, i5, i6⟩
    · rw [e, splitByte, if_neg (by decide), i1, e']
    · intro c hc
      rw [List.getLast?_cons] at hc
      cases hg : l.getLast? with
      | none => rw [hg] at hc; cases hc; decide
      | some y => rw [hg] at hc; cases hc; exact i2 _ hg
    · rw [e', hl, List.length_cons]; omega
  | @line r p _ ih =>
    have e : encodeAll ('\n' :: r) = nl :: encodeAll r := by rw [encodeAll_cons]; rfl
    have hl : (encodeAll ('\n' :: r)).length = (encodeAll r).length + 1 := by rw [e]; rfl
    obtain ⟨l, ls, p1, p2, i1, i2, i3, i4, i5, i6⟩ := ih (by omega)
    refine ⟨[], encodeAll l :: ls, [], p, ?_, by simp, Nat.zero_le _, .last _ _ empty, ?_, rfl⟩
    · rw [e, splitByte, if_pos rfl, i1]; rfl
    · rw [i6]
      refine .cons _ _ _ _ (by omega) ?_ i5
      rw [dropCR_encodeAll i2, decodeAll_encodeAll]
      exact i4

/-- **C79**: a script as one writes it means the commands one wrote. -/
theorem C79_script {cs : List Char} {p : List Value} (h : ScriptWritten cs p) (hlen : (encodeAll cs).length < 65536) : parseString (encodeAll cs) = .ok p := by
  rw [C42_parser_is_grammar]
  obtain ⟨l, ls, p1, p2, i1, i2, i3, i4, i5, i6⟩ := script_lines h hlen
  rw [ScriptReads, i1, i6]
  refine .cons _ _ _ _ (by omega) ?_ i5
  rw [dropCR_encodeAll i2, decodeAll_encodeAll]
  exact i4

end Texted
