import Verif.Lemmas.XmlTokens
/- Lemmas for C77: whole test files. -/
namespace Texted
open Spec

/-! ### Fields -/

/-- The name of a field. -/
def TestField.name : TestField → Bytes
  | .buffer => b! "buffer"
  | .input => b! "input"
  | .output => b! "output"
  | .result => b! "result"
  | .error => b! "error"

theorem fieldOf_name (f : TestField) : fieldOf f.name = some f := by cases f <;> decide

theorem fieldOf_some {n : Bytes} {f : TestField} (h : fieldOf n = some f) : n = f.name := by
  unfold fieldOf at h
  repeat' split at h
  all_goals first
    | (cases h; assumption)
    | cases h

theorem fieldNames_iff (n : Bytes) : n ∈ fieldNames ↔ ∃ f, fieldOf n = some f := by
  constructor
  · intro h
    simp only [fieldNames, List.mem_cons, List.not_mem_nil, or_false] at h
    rcases h with rfl | rfl | rfl | rfl | rfl
    · exact ⟨.buffer, by decide⟩
    · exact ⟨.input, by decide⟩
    · exact ⟨.output, by decide⟩
    · exact ⟨.result, by decide⟩
    · exact ⟨.error, by decide⟩
  · rintro ⟨f, h⟩
    rw [fieldOf_some h]
    cases f <;> decide

theorem sets_put (v : Bytes) (f : TestField) (c : TestCase) : Sets v f.name c (c.put v f) := by
  cases f
  · exact .buffer
  · exact .input
  · exact .output
  · exact .result
  · exact .error

theorem put_of_sets {v n : Bytes} {f : TestField} {c c' : TestCase} (hf : fieldOf n = some f) (h : Sets v n c c') : c' = c.put v f := by
  cases h with
  | buffer => have : f = .buffer := Option.some.inj (hf.symm.trans (fieldOf_name .buffer)); rw [this]; rfl
  | input => have : f = .input := Option.some.inj (hf.symm.trans (fieldOf_name .input)); rw [this]; rfl
  | output => have : f = .output := Option.some.inj (hf.symm.trans (fieldOf_name .output)); rw [this]; rfl
  | result => have : f = .result := Option.some.inj (hf.symm.trans (fieldOf_name .result)); rw [this]; rfl
  | error => have : f = .error := Option.some.inj (hf.symm.trans (fieldOf_name .error)); rw [this]; rfl

theorem localPart_loc {n : Bytes} {q : XName} (h : splitName n = some q) : LocalPart n q.loc := ((splitName_some h).2.2 _).2 rfl

theorem localPart_eq {n l : Bytes} {q : XName} (h : splitName n = some q) (hl : LocalPart n l) : l = q.loc := ((splitName_some h).2.2 _).1 hl

/-! ### The language of the result -/

theorem langOf_exists (w : List (Bytes × Bytes)) (n before : Bytes) : ∃ after, LangOf w n before after := by
  have key : ∀ w : List (Bytes × Bytes), (∀ s ∈ w, ¬ LocalPart s.1 (b! "lang")) ∨
      ∃ pre a v post, w = pre ++ (a, v) :: post ∧ LocalPart a (b! "lang") ∧ ∀ s ∈ post, ¬ LocalPart s.1 (b! "lang") := by
    intro w
    induction w with
    | nil => exact .inl (fun _ h => absurd h List.not_mem_nil)
    | cons s w ih =>
      rcases ih with ih | ⟨pre, a, v, post, rfl, h1, h2⟩
      · rcases Classical.em (LocalPart s.1 (b! "lang")) with h | h
        · exact .inr ⟨[], s.1, s.2, w, rfl, h, ih⟩
        · left
          intro s' hs'
          simp only [List.mem_cons] at hs'
          rcases hs' with rfl | hs'
          · exact h
          · exact ih s' hs'
      · exact .inr ⟨s :: pre, a, v, post, rfl, h1, h2⟩
  rcases Classical.em (n = b! "result") with hn | hn
  · rcases key w with h | ⟨pre, a, v, post, h0, h1, h2⟩
    · exact ⟨before, .inr ⟨.inr h, rfl⟩⟩
    · exact ⟨v, .inl ⟨hn, pre, a, v, post, h0, h1, h2, rfl⟩⟩
  · exact ⟨before, .inr ⟨.inl hn, rfl⟩⟩

theorem putLang_of {l : List (XName × Bytes)} {w : List (Bytes × Bytes)} (hs : SameAttrs l w) {c : TestCase} {n lang : Bytes} {f : TestField}
    (hf : fieldOf n = some f) (h : LangOf w n c.resultLang lang) : c.putLang l f = { c with resultLang := lang } := by
  have none : ∀ (l : List (XName × Bytes)) (w : List (Bytes × Bytes)), SameAttrs l w → (∀ s ∈ w, ¬ LocalPart s.1 (b! "lang")) → ∀ c : TestCase,
      c.putLang l .result = c := by
    intro l w
    induction w generalizing l with
    | nil =>
      intro hs _ c
      cases l with
      | nil => rfl
      | cons a l => simp [SameAttrs] at hs
    | cons s w ih =>
      intro hs hno c
      cases l with
      | nil => simp [SameAttrs] at hs
      | cons a l =>
        simp only [SameAttrs, List.map_cons, List.cons.injEq, Prod.mk.injEq] at hs
        have ha : ¬ a.1.loc = b! "lang" := by
          intro e
          have := localPart_loc hs.1.1
          rw [e] at this
          exact hno s (by simp) this
        have := ih l hs.2 (fun s hs => hno s (by simp [hs])) c
        unfold TestCase.putLang at this ⊢
        rw [List.foldl_cons, if_neg ha]
        exact this
  rcases h with ⟨hn, pre, a, v, post, rfl, h1, h2, rfl⟩ | ⟨h, rfl⟩
  · subst hn
    have hfr : f = .result := Option.some.inj (hf.symm.trans (fieldOf_name .result))
    subst hfr
    have : ∀ pre (l : List (XName × Bytes)), SameAttrs l (pre ++ (a, lang) :: post) → ∀ c : TestCase, c.putLang l .result = { c with resultLang := lang } := by
      intro pre
      induction pre with
      | nil =>
        intro l hs c
        cases l with
        | nil => simp [SameAttrs] at hs
        | cons b l =>
          simp only [SameAttrs, List.nil_append, List.map_cons, List.cons.injEq, Prod.mk.injEq] at hs
          have hb : b.1.loc = b! "lang" := (localPart_eq hs.1.1 h1).symm
          have := none l post hs.2 h2 { c with resultLang := b.2 }
          unfold TestCase.putLang at this ⊢
          rw [List.foldl_cons, if_pos hb, this, ← hs.1.2]
      | cons s pre ih =>
        intro l hs c
        cases l with
        | nil => simp [SameAttrs] at hs
        | cons b l =>
          simp only [SameAttrs, List.cons_append, List.map_cons, List.cons.injEq, Prod.mk.injEq] at hs
          have h1 := ih l hs.2
          unfold TestCase.putLang at h1 ⊢
          dsimp only at h1 ⊢
          rw [List.foldl_cons, h1]
          by_cases hb : b.1.loc = b! "lang"
          · rw [if_pos hb]
          · rw [if_neg hb]
    exact this pre l hs c
  · show c.putLang l f = c
    rcases h with h | h
    · cases f with
      | result => exact absurd (fieldOf_some hf) h
      | _ => rfl
    · cases f with
      | result => exact none l w hs h c
      | _ => rfl

/-! ### The loop -/

/-- The loop ends with `c`, given enough fuel. -/
def Runs (x : XmlExt) (st : XState) (s : Bytes) (c : TestCase) : Prop := ∃ n, unmarshalLoop x n st s = some c

theorem loop_enough (x : XmlExt) : ∀ n st s c, unmarshalLoop x n st s = some c → ∀ m, s.length ≤ m → unmarshalLoop x m st s = some c := by
  intro n
  induction n with
  | zero => intro st s c h; cases h
  | succ n ih =>
    intro st s c h m hm
    rw [unmarshalLoop] at h
    cases ht : rawToken x s with
    | none => rw [ht] at h; cases h
    | some p =>
      obtain ⟨ts, r⟩ := p
      rw [ht] at h
      obtain ⟨u, rfl, hu, _⟩ := rawToken_sound ht
      have hpos := List.length_pos_iff.2 (token_nonempty hu)
      rw [List.length_append] at hm
      obtain ⟨m, rfl⟩ : ∃ g, m = g + 1 := ⟨m - 1, by omega⟩
      rw [unmarshalLoop, ht]
      simp only [] at h ⊢
      cases hs : st.steps ts with
      | none => rw [hs] at h; cases h
      | some o =>
        rw [hs] at h
        cases o with
        | inl c' => exact h
        | inr st' => exact ih _ _ _ h m (by omega)

theorem runs_iff {x : XmlExt} {st : XState} {s : Bytes} {c : TestCase} : Runs x st s c ↔ unmarshalLoop x s.length st s = some c :=
  ⟨fun ⟨n, h⟩ => loop_enough x n _ _ _ h _ (Nat.le_refl _), fun h => ⟨_, h⟩⟩

theorem runs_token {x : XmlExt} {st st' : XState} {u r : Bytes} {ts : List XTok} {c : TestCase} (h : Token x u ts)
    (hr : u.head? ≠ some 60 → r.head? = some 60) (hs : st.steps ts = some (.inr st')) (hn : Runs x st' r c) : Runs x st (u ++ r) c := by
  obtain ⟨n, hn⟩ := hn
  refine ⟨n + 1, ?_⟩
  rw [unmarshalLoop, rawToken_complete h hr]
  simp only [hs]
  exact hn

theorem runs_end {x : XmlExt} {st : XState} {u r : Bytes} {ts : List XTok} {c : TestCase} (h : Token x u ts)
    (hr : u.head? ≠ some 60 → r.head? = some 60) (hs : st.steps ts = some (.inl c)) : Runs x st (u ++ r) c := by
  refine ⟨1, ?_⟩
  rw [unmarshalLoop, rawToken_complete h hr]
  simp only [hs]

theorem loop_inv {x : XmlExt} {n : Nat} {st : XState} {s : Bytes} {c : TestCase} (h : unmarshalLoop x n st s = some c) :
    ∃ u ts r, s = u ++ r ∧ Token x u ts ∧ (u.head? ≠ some 60 → r.head? = some 60) ∧
      (st.steps ts = some (.inl c) ∨ ∃ st' m, st.steps ts = some (.inr st') ∧ m < n ∧ unmarshalLoop x m st' r = some c) := by
  cases n with
  | zero => cases h
  | succ n =>
    rw [unmarshalLoop] at h
    cases ht : rawToken x s with
    | none => rw [ht] at h; cases h
    | some p =>
      obtain ⟨ts, r⟩ := p
      rw [ht] at h
      obtain ⟨u, rfl, hu, hr⟩ := rawToken_sound ht
      refine ⟨u, ts, r, rfl, hu, hr, ?_⟩
      simp only [] at h
      cases hs : st.steps ts with
      | none => rw [hs] at h; cases h
      | some o =>
        rw [hs] at h
        cases o with
        | inl c' => cases h; exact .inl rfl
        | inr st' => exact .inr ⟨st', n, rfl, by omega, h⟩

/-! ### Steps -/

section steps
variable {stack : List XName} {c : TestCase} {cur : Option (TestField × Bytes)} {k : Nat} {q : XName} {l : List (XName × Bytes)} {t : Bytes}

theorem steps_other (st : XState) : st.steps [.other] = some (.inr st) := rfl

theorem steps_skip_text : (XState.mk stack c cur (k + 1)).steps [.text t] = some (.inr ⟨stack, c, cur, k + 1⟩) := rfl

theorem steps_skip_start : (XState.mk stack c cur (k + 1)).steps [.start q l] = some (.inr ⟨q :: stack, c, cur, k + 2⟩) := rfl

theorem steps_skip_stop : (XState.mk (q :: stack) c cur (k + 1)).steps [.stop q] = some (.inr ⟨stack, c, cur, k⟩) := by
  simp [XState.steps, XState.step]

theorem steps_skip_both : (XState.mk stack c cur (k + 1)).steps [.start q l, .stop q] = some (.inr ⟨stack, c, cur, k + 1⟩) := by
  simp [XState.steps, XState.step]

variable {f : TestField} {d : Bytes}

theorem steps_field_text : (XState.mk stack c (some (f, d)) 0).steps [.text t] = some (.inr ⟨stack, c, some (f, d ++ t), 0⟩) := rfl

theorem steps_field_start : (XState.mk stack c (some (f, d)) 0).steps [.start q l] = some (.inr ⟨q :: stack, c, some (f, d), 1⟩) := rfl

theorem steps_field_stop : (XState.mk (q :: stack) c (some (f, d)) 0).steps [.stop q] = some (.inr ⟨stack, c.put d f, none, 0⟩) := by
  simp [XState.steps, XState.step]

theorem steps_field_both : (XState.mk stack c (some (f, d)) 0).steps [.start q l, .stop q] = some (.inr ⟨stack, c, some (f, d), 0⟩) := by
  simp [XState.steps, XState.step]

theorem steps_top_text : (XState.mk stack c none 0).steps [.text t] = some (.inr ⟨stack, c, none, 0⟩) := rfl

theorem steps_top_start (h : fieldOf q.loc = some f) :
    (XState.mk stack c none 0).steps [.start q l] = some (.inr ⟨q :: stack, c.putLang l f, some (f, []), 0⟩) := by
  simp [XState.steps, XState.step, h]

theorem steps_top_other (h : fieldOf q.loc = none) : (XState.mk stack c none 0).steps [.start q l] = some (.inr ⟨q :: stack, c, none, 1⟩) := by
  simp [XState.steps, XState.step, h]

theorem steps_top_both (h : fieldOf q.loc = some f) :
    (XState.mk stack c none 0).steps [.start q l, .stop q] = some (.inr ⟨stack, (c.putLang l f).put [] f, none, 0⟩) := by
  simp [XState.steps, XState.step, h]

theorem steps_top_bothOther (h : fieldOf q.loc = none) :
    (XState.mk stack c none 0).steps [.start q l, .stop q] = some (.inr ⟨stack, c, none, 0⟩) := by
  simp [XState.steps, XState.step, h]

theorem steps_top_stop : (XState.mk (q :: stack) c none 0).steps [.stop q] = some (.inl c) := by
  simp [XState.steps, XState.step]

/-- An end tag closes the innermost element. -/
theorem steps_stop_inv {st : XState} {o : TestCase ⊕ XState} (h : st.steps [.stop q] = some o) : ∃ stack, st.stack = q :: stack := by
  simp only [XState.steps, XState.step] at h
  cases hs : st.stack with
  | nil => rw [hs] at h; simp at h
  | cons m stack =>
    rw [hs] at h
    simp only [] at h
    by_cases hm : m = q
    · exact ⟨stack, by rw [hm]⟩
    · rw [if_neg hm] at h; cases h

end steps

/-! ### What is accepted is read -/

theorem markup_append {s r : Bytes} (h : AtMarkup s) (hr : r.head? = some 60) : (s ++ r).head? = some 60 := by
  rcases h with rfl | h
  · exact hr
  · cases s with
    | nil => cases h
    | cons a s => exact h

theorem sameAttrs_exists {x : XmlExt} {n tag : Bytes} {w : List (Bytes × Bytes)} (h : Tag x n w tag) :
    ∃ q l, splitName n = some q ∧ SameAttrs l w := by
  obtain ⟨u, _, htn, ha, _⟩ := h
  obtain ⟨q, hq⟩ := splitName_exists htn.2
  obtain ⟨l, hl, _⟩ := xmlAttrs_complete x ha false []
  exact ⟨q, l, hq, hl⟩

theorem endTag_head {x : XmlExt} {n e : Bytes} (h : EndTag x n e) (s : Bytes) : (e ++ s).head? = some 60 := by
  obtain ⟨sp, _, _, rfl⟩ := h; rfl

theorem endTag_split {x : XmlExt} {n e : Bytes} (h : EndTag x n e) {q : XName} (hq : splitName n = some q) : Token x e [.stop q] := .closing h hq

theorem runs_skip {x : XmlExt} {i t : Bytes} (h : Inside x i t) : ∀ {stack c cur k r c'}, r.head? = some 60 →
    Runs x ⟨stack, c, cur, k + 1⟩ r c' → Runs x ⟨stack, c, cur, k + 1⟩ (i ++ r) c' := by
  induction h with
  | nil => intro stack c cur k r c' _ hn; exact hn
  | text h1 h2 _ ih =>
    intro stack c cur k r c' hr hn
    rw [List.append_assoc]
    exact runs_token (.text h1) (fun _ => markup_append h2 hr) steps_skip_text (ih hr hn)
  | @cdata s t s' t' h1 _ ih =>
    intro stack c cur k r c' hr hn
    rw [List.append_assoc]
    refine runs_token (.cdata h1) (fun hh => absurd ?_ hh) steps_skip_text (ih hr hn)
    obtain ⟨c, rfl, _⟩ := h1; rfl
  | @aside s s' t' h1 _ ih =>
    intro stack c cur k r c' hr hn
    rw [List.append_assoc]
    refine runs_token (.aside h1) (fun hh => absurd ?_ hh) (steps_other _) (ih hr hn)
    rcases h1 with ⟨c, rfl, _⟩ | ⟨n, sp, c, rfl, _⟩ | ⟨b, c, rfl, _⟩ <;> rfl
  | @element n l tag i t e s' t' h1 h2 h3 h4 ih1 ih2 =>
    intro stack c cur k r c' hr hn
    obtain ⟨q, l', hq, hl⟩ := sameAttrs_exists h1
    have e0 : b! "<" ++ tag ++ b! ">" ++ i ++ e ++ s' ++ r = 60 :: (tag ++ [62]) ++ (i ++ (e ++ (s' ++ r))) := by simp
    rw [e0]
    refine runs_token (.opening h1 hq hl) (fun hh => absurd rfl hh) steps_skip_start (ih1 (endTag_head h3 _) ?_)
    exact runs_token (endTag_split h3 hq) (fun hh => absurd (by have := endTag_head h3 []; simpa using this) hh) steps_skip_stop (ih2 hr hn)
  | @empty n l tag s' t' h1 h4 ih2 =>
    intro stack c cur k r c' hr hn
    obtain ⟨q, l', hq, hl⟩ := sameAttrs_exists h1
    have e0 : b! "<" ++ tag ++ b! "/>" ++ s' ++ r = 60 :: (tag ++ [47, 62]) ++ (s' ++ r) := by simp
    rw [e0]
    exact runs_token (.empty h1 hq hl) (fun hh => absurd rfl hh) steps_skip_both (ih2 hr hn)

theorem runs_field {x : XmlExt} {i t : Bytes} (h : Inside x i t) : ∀ {stack c f d r c'}, r.head? = some 60 →
    Runs x ⟨stack, c, some (f, d ++ t), 0⟩ r c' → Runs x ⟨stack, c, some (f, d), 0⟩ (i ++ r) c' := by
  induction h with
  | nil => intro stack c f d r c' _ hn; rw [List.append_nil] at hn; exact hn
  | text h1 h2 _ ih =>
    intro stack c f d r c' hr hn
    rw [List.append_assoc]
    rw [← List.append_assoc] at hn
    exact runs_token (.text h1) (fun _ => markup_append h2 hr) steps_field_text (ih hr hn)
  | @cdata s t s' t' h1 _ ih =>
    intro stack c f d r c' hr hn
    rw [List.append_assoc]
    rw [← List.append_assoc] at hn
    refine runs_token (.cdata h1) (fun hh => absurd ?_ hh) steps_field_text (ih hr hn)
    obtain ⟨c, rfl, _⟩ := h1; rfl
  | @aside s s' t' h1 _ ih =>
    intro stack c f d r c' hr hn
    rw [List.append_assoc]
    refine runs_token (.aside h1) (fun hh => absurd ?_ hh) (steps_other _) (ih hr hn)
    rcases h1 with ⟨c, rfl, _⟩ | ⟨n, sp, c, rfl, _⟩ | ⟨b, c, rfl, _⟩ <;> rfl
  | @element n l tag i t e s' t' h1 h2 h3 h4 ih1 ih2 =>
    intro stack c f d r c' hr hn
    obtain ⟨q, l', hq, hl⟩ := sameAttrs_exists h1
    have e0 : b! "<" ++ tag ++ b! ">" ++ i ++ e ++ s' ++ r = 60 :: (tag ++ [62]) ++ (i ++ (e ++ (s' ++ r))) := by simp
    rw [e0]
    refine runs_token (.opening h1 hq hl) (fun hh => absurd rfl hh) steps_field_start (runs_skip h2 (endTag_head h3 _) ?_)
    exact runs_token (endTag_split h3 hq) (fun hh => absurd (by have := endTag_head h3 []; simpa using this) hh) steps_skip_stop (ih2 hr hn)
  | @empty n l tag s' t' h1 h4 ih2 =>
    intro stack c f d r c' hr hn
    obtain ⟨q, l', hq, hl⟩ := sameAttrs_exists h1
    have e0 : b! "<" ++ tag ++ b! "/>" ++ s' ++ r = 60 :: (tag ++ [47, 62]) ++ (s' ++ r) := by simp
    rw [e0]
    exact runs_token (.empty h1 hq hl) (fun hh => absurd rfl hh) steps_field_both (ih2 hr hn)

theorem fieldOf_none {n : Bytes} (h : n ∉ fieldNames) : fieldOf n = none := by
  cases hf : fieldOf n with
  | none => rfl
  | some f => exact absurd ((fieldNames_iff n).2 ⟨f, hf⟩) h

theorem runs_top {x : XmlExt} {s : Bytes} {c c1 : TestCase} (h : Fields x s c c1) : ∀ {stack r c'}, r.head? = some 60 →
    Runs x ⟨stack, c1, none, 0⟩ r c' → Runs x ⟨stack, c, none, 0⟩ (s ++ r) c' := by
  induction h with
  | nil => intro stack r c' _ hn; exact hn
  | text h1 h2 _ ih =>
    intro stack r c' hr hn
    rw [List.append_assoc]
    exact runs_token (.text h1) (fun _ => markup_append h2 hr) steps_top_text (ih hr hn)
  | @cdata s t s' c c1 h1 _ ih =>
    intro stack r c' hr hn
    rw [List.append_assoc]
    refine runs_token (.cdata h1) (fun hh => absurd ?_ hh) steps_top_text (ih hr hn)
    obtain ⟨c, rfl, _⟩ := h1; rfl
  | @aside s s' c c1 h1 _ ih =>
    intro stack r c' hr hn
    rw [List.append_assoc]
    refine runs_token (.aside h1) (fun hh => absurd ?_ hh) (steps_other _) (ih hr hn)
    rcases h1 with ⟨c, rfl, _⟩ | ⟨n, sp, c, rfl, _⟩ | ⟨b, c, rfl, _⟩ <;> rfl
  | @field n f l tag i v e s' c lang c1 c2 h1 hl hf h2 h3 hlang hsets _ ih =>
    intro stack r c' hr hn
    obtain ⟨q, l', hq, hsl⟩ := sameAttrs_exists h1
    obtain ⟨fld, hfld⟩ := (fieldNames_iff f).1 hf
    have hfq := localPart_eq hq hl
    subst hfq
    have e0 : b! "<" ++ tag ++ b! ">" ++ i ++ e ++ s' ++ r = 60 :: (tag ++ [62]) ++ (i ++ (e ++ (s' ++ r))) := by simp
    rw [e0]
    refine runs_token (.opening h1 hq hsl) (fun hh => absurd rfl hh) (steps_top_start hfld) (runs_field h2 (endTag_head h3 _) ?_)
    refine runs_token (endTag_split h3 hq) (fun hh => absurd (by have := endTag_head h3 []; simpa using this) hh) steps_field_stop ?_
    rw [putLang_of hsl hfld hlang, List.nil_append, ← put_of_sets hfld hsets]
    exact ih hr hn
  | @emptyField n f l tag s' c lang c1 c2 h1 hl hf hlang hsets _ ih =>
    intro stack r c' hr hn
    obtain ⟨q, l', hq, hsl⟩ := sameAttrs_exists h1
    obtain ⟨fld, hfld⟩ := (fieldNames_iff f).1 hf
    have hfq := localPart_eq hq hl
    subst hfq
    have e0 : b! "<" ++ tag ++ b! "/>" ++ s' ++ r = 60 :: (tag ++ [47, 62]) ++ (s' ++ r) := by simp
    rw [e0]
    refine runs_token (.empty h1 hq hsl) (fun hh => absurd rfl hh) (steps_top_both hfld) ?_
    rw [putLang_of hsl hfld hlang, ← put_of_sets hfld hsets]
    exact ih hr hn
  | @other n f l tag i v e s' c c1 h1 hl hf h2 h3 _ ih =>
    intro stack r c' hr hn
    obtain ⟨q, l', hq, hsl⟩ := sameAttrs_exists h1
    have hfq := localPart_eq hq hl
    subst hfq
    have e0 : b! "<" ++ tag ++ b! ">" ++ i ++ e ++ s' ++ r = 60 :: (tag ++ [62]) ++ (i ++ (e ++ (s' ++ r))) := by simp
    rw [e0]
    refine runs_token (.opening h1 hq hsl) (fun hh => absurd rfl hh) (steps_top_other (fieldOf_none hf)) (runs_skip h2 (endTag_head h3 _) ?_)
    exact runs_token (endTag_split h3 hq) (fun hh => absurd (by have := endTag_head h3 []; simpa using this) hh) steps_skip_stop (ih hr hn)
  | @emptyOther n f l tag s' c c1 h1 hl hf _ ih =>
    intro stack r c' hr hn
    obtain ⟨q, l', hq, hsl⟩ := sameAttrs_exists h1
    have hfq := localPart_eq hq hl
    subst hfq
    have e0 : b! "<" ++ tag ++ b! "/>" ++ s' ++ r = 60 :: (tag ++ [47, 62]) ++ (s' ++ r) := by simp
    rw [e0]
    exact runs_token (.empty h1 hq hsl) (fun hh => absurd rfl hh) (steps_top_bothOther (fieldOf_none hf)) (ih hr hn)

/-! ### What is read was accepted -/

theorem markup_of_append {i e r : Bytes} (h : (i ++ e ++ r).head? = some 60) : AtMarkup i := by
  cases i with
  | nil => exact .inl rfl
  | cons a i => exact .inr h

theorem textPiece_head {u t : Bytes} (h : TextPiece u t) : u.head? ≠ some 60 := chars_head h.2.1

theorem loop_skip (x : XmlExt) : ∀ n stack c cur k s c', unmarshalLoop x n ⟨stack, c, cur, k + 1⟩ s = some c' →
    ∃ i t nm e q stack' r m, Inside x i t ∧ EndTag x nm e ∧ splitName nm = some q ∧ stack = q :: stack' ∧ s = i ++ e ++ r ∧ m < n ∧
      unmarshalLoop x m ⟨stack', c, cur, k⟩ r = some c' := by
  intro n
  induction n using Nat.strongRecOn with
  | ind n ih =>
    intro stack c cur k s c' h
    obtain ⟨u, ts, r, rfl, hu, hr, hs⟩ := loop_inv h
    cases hu with
    | text h1 =>
      rw [steps_skip_text] at hs
      rcases hs with hs | ⟨st', m, hs, hm, hn⟩ <;> cases hs
      obtain ⟨i, t, nm, e, q, stack', r', m', g1, g2, g3, g4, rfl, g6, g7⟩ := ih m hm _ _ _ _ _ _ hn
      exact ⟨_, _, nm, e, q, stack', r', m', .text h1 (markup_of_append (hr (textPiece_head h1))) g1, g2, g3, g4, by simp, by omega, g7⟩
    | cdata h1 =>
      rw [steps_skip_text] at hs
      rcases hs with hs | ⟨st', m, hs, hm, hn⟩ <;> cases hs
      obtain ⟨i, t, nm, e, q, stack', r', m', g1, g2, g3, g4, rfl, g6, g7⟩ := ih m hm _ _ _ _ _ _ hn
      exact ⟨_, _, nm, e, q, stack', r', m', .cdata h1 g1, g2, g3, g4, by simp, by omega, g7⟩
    | aside h1 =>
      rw [steps_other] at hs
      rcases hs with hs | ⟨st', m, hs, hm, hn⟩ <;> cases hs
      obtain ⟨i, t, nm, e, q, stack', r', m', g1, g2, g3, g4, rfl, g6, g7⟩ := ih m hm _ _ _ _ _ _ hn
      exact ⟨_, _, nm, e, q, stack', r', m', .aside h1 g1, g2, g3, g4, by simp, by omega, g7⟩
    | opening h1 h2 h3 =>
      rw [steps_skip_start] at hs
      rcases hs with hs | ⟨st', m, hs, hm, hn⟩ <;> cases hs
      obtain ⟨i, t, nm, e, q, stack', r', m', g1, g2, g3, g4, rfl, g6, g7⟩ := ih m hm _ _ _ _ _ _ hn
      simp only [List.cons.injEq] at g4
      obtain ⟨rfl, rfl⟩ := g4
      obtain ⟨i2, t2, nm2, e2, q2, stack2, r2, m2, f1, f2, f3, f4, rfl, f6, f7⟩ := ih m' (by omega) _ _ _ _ _ _ g7
      rw [splitName_inj g3 h2] at g2
      exact ⟨_, _, nm2, e2, q2, stack2, r2, m2, .element h1 g1 g2 f1, f2, f3, f4, by simp, by omega, f7⟩
    | empty h1 h2 h3 =>
      rw [steps_skip_both] at hs
      rcases hs with hs | ⟨st', m, hs, hm, hn⟩ <;> cases hs
      obtain ⟨i, t, nm, e, q, stack', r', m', g1, g2, g3, g4, rfl, g6, g7⟩ := ih m hm _ _ _ _ _ _ hn
      exact ⟨_, _, nm, e, q, stack', r', m', .empty h1 g1, g2, g3, g4, by simp, by omega, g7⟩
    | closing h1 h2 =>
      obtain ⟨stack', hst⟩ : ∃ stack', stack = _ :: stack' := by
        rcases hs with hs | ⟨st', m, hs, hm, hn⟩ <;> exact steps_stop_inv hs
      subst hst
      rw [steps_skip_stop] at hs
      rcases hs with hs | ⟨st', m, hs, hm, hn⟩ <;> cases hs
      exact ⟨[], [], _, _, _, stack', r, m, .nil, h1, h2, rfl, by simp, hm, hn⟩

theorem loop_field (x : XmlExt) : ∀ n stack c f d s c', unmarshalLoop x n ⟨stack, c, some (f, d), 0⟩ s = some c' →
    ∃ i t nm e q stack' r m, Inside x i t ∧ EndTag x nm e ∧ splitName nm = some q ∧ stack = q :: stack' ∧ s = i ++ e ++ r ∧ m < n ∧
      unmarshalLoop x m ⟨stack', c.put (d ++ t) f, none, 0⟩ r = some c' := by
  intro n
  induction n using Nat.strongRecOn with
  | ind n ih =>
    intro stack c f d s c' h
    obtain ⟨u, ts, r, rfl, hu, hr, hs⟩ := loop_inv h
    cases hu with
    | text h1 =>
      rw [steps_field_text] at hs
      rcases hs with hs | ⟨st', m, hs, hm, hn⟩ <;> cases hs
      obtain ⟨i, t, nm, e, q, stack', r', m', g1, g2, g3, g4, rfl, g6, g7⟩ := ih m hm _ _ _ _ _ _ hn
      rw [List.append_assoc] at g7
      exact ⟨_, _, nm, e, q, stack', r', m', .text h1 (markup_of_append (hr (textPiece_head h1))) g1, g2, g3, g4, by simp, by omega, g7⟩
    | cdata h1 =>
      rw [steps_field_text] at hs
      rcases hs with hs | ⟨st', m, hs, hm, hn⟩ <;> cases hs
      obtain ⟨i, t, nm, e, q, stack', r', m', g1, g2, g3, g4, rfl, g6, g7⟩ := ih m hm _ _ _ _ _ _ hn
      rw [List.append_assoc] at g7
      exact ⟨_, _, nm, e, q, stack', r', m', .cdata h1 g1, g2, g3, g4, by simp, by omega, g7⟩
    | aside h1 =>
      rw [steps_other] at hs
      rcases hs with hs | ⟨st', m, hs, hm, hn⟩ <;> cases hs
      obtain ⟨i, t, nm, e, q, stack', r', m', g1, g2, g3, g4, rfl, g6, g7⟩ := ih m hm _ _ _ _ _ _ hn
      exact ⟨_, _, nm, e, q, stack', r', m', .aside h1 g1, g2, g3, g4, by simp, by omega, g7⟩
    | opening h1 h2 h3 =>
      rw [steps_field_start] at hs
      rcases hs with hs | ⟨st', m, hs, hm, hn⟩ <;> cases hs
      obtain ⟨i, t, nm, e, q, stack', r', m', g1, g2, g3, g4, rfl, g6, g7⟩ := loop_skip x _ _ _ _ _ _ _ hn
      simp only [List.cons.injEq] at g4
      obtain ⟨rfl, rfl⟩ := g4
      obtain ⟨i2, t2, nm2, e2, q2, stack2, r2, m2, f1, f2, f3, f4, rfl, f6, f7⟩ := ih m' (by omega) _ _ _ _ _ _ g7
      rw [splitName_inj g3 h2] at g2
      exact ⟨_, _, nm2, e2, q2, stack2, r2, m2, .element h1 g1 g2 f1, f2, f3, f4, by simp, by omega, f7⟩
    | empty h1 h2 h3 =>
      rw [steps_field_both] at hs
      rcases hs with hs | ⟨st', m, hs, hm, hn⟩ <;> cases hs
      obtain ⟨i, t, nm, e, q, stack', r', m', g1, g2, g3, g4, rfl, g6, g7⟩ := ih m hm _ _ _ _ _ _ hn
      exact ⟨_, _, nm, e, q, stack', r', m', .empty h1 g1, g2, g3, g4, by simp, by omega, g7⟩
    | closing h1 h2 =>
      obtain ⟨stack', hst⟩ : ∃ stack', stack = _ :: stack' := by
        rcases hs with hs | ⟨st', m, hs, hm, hn⟩ <;> exact steps_stop_inv hs
      subst hst
      rw [steps_field_stop] at hs
      rcases hs with hs | ⟨st', m, hs, hm, hn⟩ <;> cases hs
      exact ⟨[], [], _, _, _, stack', r, m, .nil, h1, h2, rfl, by simp, hm, by rw [List.append_nil]; exact hn⟩

theorem loop_top (x : XmlExt) : ∀ n q c s c', unmarshalLoop x n ⟨[q], c, none, 0⟩ s = some c' →
    ∃ a nm e r, Fields x a c c' ∧ EndTag x nm e ∧ splitName nm = some q ∧ s = a ++ e ++ r := by
  intro n
  induction n using Nat.strongRecOn with
  | ind n ih =>
    intro q0 c s c' h
    obtain ⟨u, ts, r, rfl, hu, hr, hs⟩ := loop_inv h
    cases hu with
    | text h1 =>
      rw [steps_top_text] at hs
      rcases hs with hs | ⟨st', m, hs, hm, hn⟩ <;> cases hs
      obtain ⟨a, nm, e, r', g1, g2, g3, rfl⟩ := ih m hm _ _ _ _ hn
      exact ⟨_, nm, e, r', .text h1 (markup_of_append (hr (textPiece_head h1))) g1, g2, g3, by simp⟩
    | cdata h1 =>
      rw [steps_top_text] at hs
      rcases hs with hs | ⟨st', m, hs, hm, hn⟩ <;> cases hs
      obtain ⟨a, nm, e, r', g1, g2, g3, rfl⟩ := ih m hm _ _ _ _ hn
      exact ⟨_, nm, e, r', .cdata h1 g1, g2, g3, by simp⟩
    | aside h1 =>
      rw [steps_other] at hs
      rcases hs with hs | ⟨st', m, hs, hm, hn⟩ <;> cases hs
      obtain ⟨a, nm, e, r', g1, g2, g3, rfl⟩ := ih m hm _ _ _ _ hn
      exact ⟨_, nm, e, r', .aside h1 g1, g2, g3, by simp⟩
    | @opening n w l q tag h1 h2 h3 =>
      cases hf : fieldOf q.loc with
      | none =>
        rw [steps_top_other hf] at hs
        rcases hs with hs | ⟨st', m, hs, hm, hn⟩ <;> cases hs
        obtain ⟨i, t, nm, e, q', stack', r', m', g1, g2, g3, g4, rfl, g6, g7⟩ := loop_skip x _ _ _ _ _ _ _ hn
        simp only [List.cons.injEq] at g4
        obtain ⟨rfl, rfl⟩ := g4
        obtain ⟨a, nm2, e2, r2, f1, f2, f3, rfl⟩ := ih m' (by omega) _ _ _ _ g7
        rw [splitName_inj g3 h2] at g2
        refine ⟨_, nm2, e2, r2, .other h1 (localPart_loc h2) (fun hh => ?_) g1 g2 f1, f2, f3, by simp⟩
        obtain ⟨f, hff⟩ := (fieldNames_iff _).1 hh
        rw [hf] at hff; cases hff
      | some f =>
        rw [steps_top_start hf] at hs
        rcases hs with hs | ⟨st', m, hs, hm, hn⟩ <;> cases hs
        obtain ⟨i, t, nm, e, q', stack', r', m', g1, g2, g3, g4, rfl, g6, g7⟩ := loop_field x _ _ _ _ _ _ _ hn
        simp only [List.cons.injEq] at g4
        obtain ⟨rfl, rfl⟩ := g4
        obtain ⟨a, nm2, e2, r2, f1, f2, f3, rfl⟩ := ih m' (by omega) _ _ _ _ g7
        rw [splitName_inj g3 h2] at g2
        obtain ⟨lang, hlang⟩ := langOf_exists w q.loc c.resultLang
        rw [putLang_of h3 hf hlang, List.nil_append] at f1
        have hsets := sets_put t f { c with resultLang := lang }
        rw [← fieldOf_some hf] at hsets
        exact ⟨_, nm2, e2, r2, .field h1 (localPart_loc h2) ((fieldNames_iff _).2 ⟨f, hf⟩) g1 g2 hlang hsets f1, f2, f3, by simp⟩
    | @empty n w l q tag h1 h2 h3 =>
      cases hf : fieldOf q.loc with
      | none =>
        rw [steps_top_bothOther hf] at hs
        rcases hs with hs | ⟨st', m, hs, hm, hn⟩ <;> cases hs
        obtain ⟨a, nm, e, r', g1, g2, g3, rfl⟩ := ih m hm _ _ _ _ hn
        refine ⟨_, nm, e, r', .emptyOther h1 (localPart_loc h2) (fun hh => ?_) g1, g2, g3, by simp⟩
        obtain ⟨f, hff⟩ := (fieldNames_iff _).1 hh
        rw [hf] at hff; cases hff
      | some f =>
        rw [steps_top_both hf] at hs
        rcases hs with hs | ⟨st', m, hs, hm, hn⟩ <;> cases hs
        obtain ⟨a, nm, e, r', g1, g2, g3, rfl⟩ := ih m hm _ _ _ _ hn
        obtain ⟨lang, hlang⟩ := langOf_exists w q.loc c.resultLang
        rw [putLang_of h3 hf hlang] at g1
        have hsets := sets_put [] f { c with resultLang := lang }
        rw [← fieldOf_some hf] at hsets
        exact ⟨_, nm, e, r', .emptyField h1 (localPart_loc h2) ((fieldNames_iff _).2 ⟨f, hf⟩) hlang hsets g1, g2, g3, by simp⟩
    | @closing nm q' u h1 h2 =>
      obtain ⟨stack', hst⟩ : ∃ stack', [q0] = _ :: stack' := by
        rcases hs with hs | ⟨st', m, hs, hm, hn⟩ <;> exact steps_stop_inv hs
      simp only [List.cons.injEq] at hst
      obtain ⟨rfl, rfl⟩ := hst
      rw [steps_top_stop] at hs
      rcases hs with hs | ⟨st', m, hs, hm, hn⟩ <;> cases hs
      exact ⟨[], nm, u, r, .nil, h1, h2, by simp⟩

/-! ### The frame around the contents -/

theorem testcase_name (x : XmlExt) : TagName x (b! "testcase") := by
  refine ⟨⟨'t', ['e', 's', 't', 'c', 'a', 's', 'e'], by decide, ?_, ?_⟩, by decide⟩
  · simp
  · intro d hd
    simp only [List.mem_cons, List.not_mem_nil, or_false] at hd
    rcases hd with rfl | rfl | rfl | rfl | rfl | rfl | rfl <;> simp

theorem testcase_tag (x : XmlExt) : Tag x (b! "testcase") [] (b! "testcase") :=
  ⟨[], rfl, testcase_name x, .nil blank_nil, by simp⟩

theorem testcase_split : splitName (b! "testcase") = some ⟨[], b! "testcase"⟩ := by decide

theorem parse_iff (x : XmlExt) (s : Bytes) (c : TestCase) :
    parseTestCase x s = some c ↔ Runs x ⟨[⟨[], b! "testcase"⟩], {}, none, 0⟩ (s ++ b! "</testcase>") c := by
  have h : rawToken x (b! "<testcase>" ++ s ++ b! "</testcase>") = some ([.start ⟨[], b! "testcase"⟩ []], s ++ b! "</testcase>") := by
    have := rawToken_complete (r := s ++ b! "</testcase>") (Token.opening (l := []) (testcase_tag x) testcase_split rfl) (fun hh => absurd rfl hh)
    rw [List.append_assoc]
    exact this
  unfold parseTestCase unmarshalCase
  rw [h, runs_iff]
  simp only []
  rw [if_pos trivial]

/-- The last end tag cannot straddle the end of the contents. -/
theorem straddle {x : XmlExt} {s a e r : Bytes} (he : EndTag x (b! "testcase") e) (h : s ++ b! "</testcase>" = a ++ e ++ r) :
    a = s ∨ ∃ rest, s = a ++ e ++ rest := by
  obtain ⟨sp, _, hsp, rfl⟩ := he
  generalize hae : a ++ (b! "</" ++ b! "testcase" ++ sp ++ b! ">") = w at h
  rcases List.append_eq_append_iff.1 h with ⟨k, hk1, hk2⟩ | ⟨k, hk1, hk2⟩
  · -- w = s ++ k
    rcases List.eq_nil_or_concat k with rfl | ⟨k', z, rfl⟩
    · right
      exact ⟨[], by rw [hk1]; simp⟩
    · left
      have hz : z = 62 := by
        have : (a ++ (b! "</" ++ b! "testcase" ++ sp)) ++ [62] = (s ++ k') ++ [z] := by
          have e1 : (s ++ k') ++ [z] = s ++ k'.concat z := by simp
          rw [e1, ← hk1, ← hae]; simp
        have := (List.append_inj' this rfl).2
        simpa using this.symm
      subst hz
      have hr : r = [] := by
        rcases List.eq_nil_or_concat r with rfl | ⟨r', y, rfl⟩
        · rfl
        · exfalso
          have h1 : b! "</testcase" ++ [62] = (k' ++ [62] ++ r') ++ [y] := by
            have e1 : (k' ++ [62] ++ r') ++ [y] = k'.concat 62 ++ r'.concat y := by simp
            rw [e1, ← hk2]; rfl
          have h2 := (List.append_inj' h1 rfl).1
          have : (62 : UInt8) ∈ b! "</testcase" := by rw [h2]; simp
          exact absurd this (by decide)
      subst hr
      rw [List.append_nil] at h
      have h1 : (s ++ b! "</testcase") ++ [62] = (a ++ (b! "</" ++ b! "testcase" ++ sp)) ++ [62] := by
        rw [← hae] at h
        have e1 : (s ++ b! "</testcase") ++ [62] = s ++ b! "</testcase>" := by simp
        rw [e1, h]; simp
      have h2 := (List.append_inj' h1 rfl).1
      rcases List.eq_nil_or_concat sp with rfl | ⟨sp', y, rfl⟩
      · have h3 : s ++ b! "</testcase" = a ++ b! "</testcase" := by rw [h2]; simp
        exact (List.append_inj' h3 rfl).1.symm
      · exfalso
        have h3 : (s ++ b! "</testcas") ++ [101] = (a ++ (b! "</" ++ b! "testcase" ++ sp')) ++ [y] := by
          have e1 : (s ++ b! "</testcas") ++ [101] = s ++ b! "</testcase" := by simp
          rw [e1, h2]; simp
        have h4 := (List.append_inj' h3 rfl).2
        have : y = 101 := by simpa using h4.symm
        have := hsp y (by simp)
        subst_vars
        exact absurd this (by decide)
  · right
    exact ⟨k, hk1⟩

theorem testFile_iff (x : XmlExt) (s : Bytes) (c : TestCase) : parseTestCase x s = some c ↔ TestFile x s c := by
  have htok : ∀ {e : Bytes}, EndTag x (b! "testcase") e → Token x e [.stop ⟨[], b! "testcase"⟩] := fun he => .closing he testcase_split
  have hclose : EndTag x (b! "testcase") (b! "</testcase>") := ⟨[], testcase_name x, blank_nil, rfl⟩
  rw [parse_iff]
  constructor
  · rintro ⟨n, h⟩
    obtain ⟨a, nm, e, r, h1, h2, h3, h4⟩ := loop_top x _ _ _ _ _ h
    rw [splitName_inj h3 testcase_split] at h2
    rcases straddle h2 h4 with rfl | ⟨rest, hs⟩
    · exact .inl h1
    · exact .inr ⟨a, e, rest, hs, h2, h1⟩
  · rintro (h | ⟨a, e, rest, rfl, he, h⟩)
    · refine runs_top h rfl ?_
      have := runs_end (r := []) (htok hclose) (fun hh => absurd rfl hh) (steps_top_stop (c := c) (stack := []))
      simpa using this
    · rw [List.append_assoc, List.append_assoc]
      refine runs_top h (endTag_head he _) ?_
      exact runs_end (htok he) (fun hh => absurd (by have := endTag_head he []; simpa using this) hh) steps_top_stop

end Texted
