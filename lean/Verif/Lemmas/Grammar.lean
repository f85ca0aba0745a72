import Verif.Lemmas.LexState
import Verif.Spec.Grammar
import Verif.Lemmas.Literal
import Verif.Lemmas.NumberText
/-
The lexer and the parser agree with the grammar of Spec/Grammar.lean.
-/
namespace Texted
open Spec

/-! ### Tokens -/

theorem Spec.Word.append {a b : List Char} (ha : Word a) (hb : Word b) : Word (a ++ b) := by
  induction ha with
  | nil => exact hb
  | char c r h1 h2 h3 _ ih => exact .char c _ h1 h2 h3 ih
  | lit s r h1 _ ih =>
    have := Word.lit s _ h1 ih
    simpa using this

/-- The lexer state after part of a token: `current` is a word, possibly followed by an open literal. -/
def LexInv (x : Lex) : Prop :=
  match x.inQuotes, x.escapeNext with
  | false, false => Word x.current
  | true, false => ∃ w s, Word w ∧ StrBody s ∧ x.current = w ++ '"' :: s
  | true, true => ∃ w s, Word w ∧ StrBody s ∧ x.current = w ++ '"' :: (s ++ ['\\'])
  | false, true => False

theorem token_run (cs : List Char) : ∀ x : Lex, LexInv x → (cs.foldl tokenStep x).inQuotes = false →
    ∃ ts, (cs.foldl tokenStep x).flushNonempty.parts = x.parts ++ ts ∧ Tokens (x.current ++ cs) ts := by
  induction cs with
  | nil =>
    intro x hx hq
    obtain ⟨parts, cur, q, e⟩ := x
    simp only [List.foldl_nil] at hq ⊢
    subst hq
    cases e with
    | true => exact absurd hx id
    | false =>
      replace hx : Word cur := hx
      by_cases hc : cur = []
      · subst hc; exact ⟨[], by simp [Lex.flushNonempty], .nil⟩
      · refine ⟨[cur], by simp [Lex.flushNonempty, Lex.flush, hc], ?_⟩
        exact .word cur [] [] hx hc (by simp) .nil
  | cons c cs ih =>
    intro x hx hq
    obtain ⟨parts, cur, q, e⟩ := x
    rw [List.foldl_cons] at hq ⊢
    -- a step that only writes `c`
    have write : ∀ q' e', tokenStep ⟨parts, cur, q, e⟩ c = ⟨parts, cur ++ [c], q', e'⟩ → LexInv ⟨parts, cur ++ [c], q', e'⟩ →
        ∃ ts, (cs.foldl tokenStep (tokenStep ⟨parts, cur, q, e⟩ c)).flushNonempty.parts = parts ++ ts ∧ Tokens (cur ++ c :: cs) ts := by
      intro q' e' hs hi
      rw [hs] at hq ⊢
      obtain ⟨ts, h1, h2⟩ := ih _ hi hq
      exact ⟨ts, h1, by simpa using h2⟩
    cases q with
    | true =>
      cases e with
      | true =>
        obtain ⟨w, s, hw, hs, hcur⟩ := hx
        refine write true false (by simp [tokenStep, Lex.write]) ⟨w, s ++ ['\\', c], hw, hs.append (.esc c [] .nil), ?_⟩
        replace hcur : cur = _ := hcur
        simp [hcur]
      | false =>
        obtain ⟨w, s, hw, hs, hcur⟩ := hx
        replace hcur : cur = _ := hcur
        by_cases h1 : c = '\\'
        · subst h1
          exact write true true (by simp [tokenStep, Lex.write]) ⟨w, s, hw, hs, by simp [hcur]⟩
        · by_cases h2 : c = '"'
          · subst h2
            refine write false false (by simp [tokenStep, Lex.write]) ?_
            show Word (cur ++ ['"'])
            rw [hcur]
            have := hw.append (.lit s [] hs .nil)
            simpa using this
          · refine write true false ?_ ⟨w, s ++ [c], hw, hs.append (.char c [] h2 h1 .nil), by simp [hcur]⟩
            simp only [tokenStep, Lex.write, h1, h2, if_false, if_true, Bool.false_eq_true]
            split
            · rfl
            · split <;> rfl
    | false =>
      cases e with
      | true => exact absurd hx id
      | false =>
        replace hx : Word cur := hx
        by_cases h2 : c = '"'
        · subst h2
          exact write true false (by simp [tokenStep, Lex.write]) ⟨cur, [], hx, .nil, rfl⟩
        · by_cases hp : parenthesis c
          · have h1 : c ≠ '\\' := by rintro rfl; rcases hp with h | h <;> exact absurd h (by decide)
            have hs : tokenStep ⟨parts, cur, false, false⟩ c =
                { (⟨parts, cur, false, false⟩ : Lex).flushNonempty with parts := (⟨parts, cur, false, false⟩ : Lex).flushNonempty.parts ++ [[c]] } := by
              simp only [tokenStep, h1, h2, Bool.false_eq_true, if_false]
              rw [if_pos (show c = '(' ∨ c = ')' from hp)]
            rw [hs] at hq ⊢
            by_cases hc : cur = []
            · subst hc
              obtain ⟨ts, k1, k2⟩ := ih ⟨parts ++ [[c]], [], false, false⟩ Word.nil hq
              refine ⟨[c] :: ts, ?_, ?_⟩
              · simpa [Lex.flushNonempty] using k1
              · exact .paren c cs ts hp k2
            · have hf : ({ (⟨parts, cur, false, false⟩ : Lex).flushNonempty with parts := (⟨parts, cur, false, false⟩ : Lex).flushNonempty.parts ++ [[c]] } : Lex)
                  = ⟨parts ++ [cur] ++ [[c]], [], false, false⟩ := by
                simp [Lex.flushNonempty, Lex.flush, hc]
              rw [hf] at hq ⊢
              obtain ⟨ts, k1, k2⟩ := ih _ (show LexInv ⟨_, [], false, false⟩ from Word.nil) hq
              refine ⟨cur :: [c] :: ts, by rw [k1]; simp, ?_⟩
              exact .word cur (c :: cs) _ hx hc (by simpa using Or.inr hp) (.paren c cs ts hp k2)
          · by_cases hb : blank c
            · have h1 : c ≠ '\\' := by rintro rfl; rcases hb with h | h | h | h <;> exact absurd h (by decide)
              have hs : tokenStep ⟨parts, cur, false, false⟩ c = (⟨parts, cur, false, false⟩ : Lex).flushNonempty := by
                simp only [tokenStep, h1, h2, Bool.false_eq_true, if_false]
                rw [if_neg (show ¬ (c = '(' ∨ c = ')') from hp), if_pos (show c = ' ' ∨ c = '\t' ∨ c = '\n' ∨ c = '\r' from hb)]
              rw [hs] at hq ⊢
              by_cases hc : cur = []
              · subst hc
                obtain ⟨ts, k1, k2⟩ := ih ⟨parts, [], false, false⟩ Word.nil hq
                exact ⟨ts, k1, .blank c cs ts hb k2⟩
              · have hf : (⟨parts, cur, false, false⟩ : Lex).flushNonempty = ⟨parts ++ [cur], [], false, false⟩ := by
                  simp [Lex.flushNonempty, Lex.flush, hc]
                rw [hf] at hq ⊢
                obtain ⟨ts, k1, k2⟩ := ih _ (show LexInv ⟨_, [], false, false⟩ from Word.nil) hq
                refine ⟨cur :: ts, by rw [k1]; simp, ?_⟩
                exact .word cur (c :: cs) _ hx hc (by simpa using Or.inl hb) (.blank c cs ts hb k2)
            · refine write false false ?_ (hx.append (.char c [] h2 hb hp .nil))
              simp only [tokenStep, Lex.write, h2, Bool.false_eq_true, if_false]
              rw [if_neg (show ¬ (c = '(' ∨ c = ')') from hp), if_neg (show ¬ (c = ' ' ∨ c = '\t' ∨ c = '\n' ∨ c = '\r') from hb)]
              split <;> rfl

theorem tokenStep_word {w : List Char} (h : Word w) : ∀ parts cur,
    w.foldl tokenStep { parts := parts, current := cur } = { parts := parts, current := cur ++ w } := by
  induction h with
  | nil => intro parts cur; simp
  | char c r h1 h2 h3 _ ih =>
    intro parts cur
    rw [List.foldl_cons]
    have : tokenStep { parts := parts, current := cur } c = { parts := parts, current := cur ++ [c] } := by
      simp only [tokenStep, Lex.write, h1, Bool.false_eq_true, if_false]
      rw [if_neg (show ¬ (c = '(' ∨ c = ')') from h3), if_neg (show ¬ (c = ' ' ∨ c = '\t' ∨ c = '\n' ∨ c = '\r') from h2)]
      split <;> rfl
    rw [this, ih]; simp
  | lit s r h1 _ ih =>
    intro parts cur
    have : '"' :: (s ++ '"' :: r) = ('"' :: (s ++ ['"'])) ++ r := by simp
    rw [this, List.foldl_append, tokenStep_lit h1, ih]; simp

theorem token_complete {cs : List Char} {ts : List (List Char)} (h : Tokens cs ts) : ∀ ps,
    (cs.foldl tokenStep { parts := ps }).flushNonempty = { parts := ps ++ ts } := by
  induction h with
  | nil => intro ps; simp [Lex.flushNonempty]
  | blank c r ts hb _ ih =>
    intro ps
    rw [List.foldl_cons]
    have : tokenStep { parts := ps } c = { parts := ps } := by
      rcases hb with rfl | rfl | rfl | rfl <;> rfl
    rw [this, ih]
  | paren c r ts hp _ ih =>
    intro ps
    rw [List.foldl_cons]
    have : tokenStep { parts := ps } c = { parts := ps ++ [[c]] } := by
      rcases hp with rfl | rfl <;> rfl
    rw [this, ih]; simp
  | word w r ts hw hne hr _ ih =>
    intro ps
    rw [List.foldl_append, tokenStep_word hw]
    rw [List.nil_append]
    have hf : ({ parts := ps, current := w } : Lex).flushNonempty = { parts := ps ++ [w] } := by
      simp [Lex.flushNonempty, Lex.flush, hne]
    cases r with
    | nil =>
      have := ih (ps ++ [w])
      rw [List.foldl_nil] at this ⊢
      rw [hf, ← flush_empty, this]; simp
    | cons c r =>
      have hs : tokenStep { parts := ps, current := w } c = tokenStep { parts := ps ++ [w] } c := by
        rcases hr c (by simp) with hb | hp
        · have e1 := done_space (x := { parts := ps, current := w }) hf
          rcases hb with rfl | rfl | rfl | rfl <;> (simp [tokenStep, hf]; simp [Lex.flushNonempty])
        · rw [done_paren hf c hp, done_paren (flush_empty _) c hp]
      rw [List.foldl_cons, hs, ← List.foldl_cons, ih]; simp

theorem tokenize_ok_iff (line : Bytes) (ts : List Bytes) :
    tokenize line = .ok ts ↔ ∃ tcs, ts = tcs.map encodeAll ∧ Tokens (decodeAll line) tcs := by
  unfold tokenize
  simp only
  constructor
  · intro h
    split at h
    · cases h
    · rename_i hq
      obtain ⟨tcs, h1, h2⟩ := token_run (decodeAll line) {} Word.nil (by simpa using hq)
      simp only [Except.ok.injEq] at h
      refine ⟨tcs, ?_, by simpa using h2⟩
      rw [← h, h1]; simp
  · rintro ⟨tcs, rfl, h⟩
    have hc := token_complete h []
    have hq : ((decodeAll line).foldl tokenStep {}).inQuotes = false := by
      have h2 : ((decodeAll line).foldl tokenStep {}).flushNonempty.q = (false, false) := by
        show ((decodeAll line).foldl tokenStep { parts := [] }).flushNonempty.q = _
        rw [hc]; rfl
      rw [flushNonempty_q] at h2
      exact congrArg Prod.fst h2
    rw [if_neg (by rw [hq]; simp)]
    show Except.ok (((decodeAll line).foldl tokenStep { parts := [] }).flushNonempty.parts.map encodeAll) = _
    rw [hc]; rfl

theorem tokenize_error_iff (line : Bytes) (e : Bytes) :
    tokenize line = .error e ↔ e = b! "unterminated string literal" ∧ ¬ Closed (decodeAll line) := by
  unfold tokenize
  simp only
  have hq : ((decodeAll line).foldl tokenStep {}).inQuotes = ((decodeAll line).foldl qstep (false, false)).1 :=
    congrArg Prod.fst (foldl_q tokenStep tokenStep_q (decodeAll line) {})
  rw [hq, ← closed_iff]
  cases ((decodeAll line).foldl qstep (false, false)).1 <;> simp [eq_comm]

/-! ### Values -/

/-- `ReadsAll` for tokens as byte strings, with `parseToken` for the single words. -/
inductive ByteReads : List Bytes → List Value → Prop
  | nil : ByteReads [] []
  | atom (t : Bytes) (v : Value) (ts : List Bytes) (vs : List Value) : t ≠ b! "(" → t ≠ b! ")" → parseToken t = .ok v →
      ByteReads ts vs → ByteReads (t :: ts) (v :: vs)
  | list (inner : List Bytes) (l : List Value) (ts : List Bytes) (vs : List Value) : ByteReads inner l → ByteReads ts vs →
      ByteReads (b! "(" :: (inner ++ b! ")" :: ts)) (.list l :: vs)

theorem quoted_iff (w : List Char) : (hasPrefix (encodeAll w) (b! "\"") && hasSuffix (encodeAll w) (b! "\"")) = true ↔ Quoted w := by
  rw [Bool.and_eq_true, Quoted]
  refine and_congr ?_ ?_
  · cases w with
    | nil => simp [hasPrefix, encodeAll]
    | cons c r =>
      obtain ⟨x, t, he, hx⟩ := encodeAll_head c r '"' (by decide)
      rw [he, hasPrefix_quote, beq_iff_eq, List.head?_cons, Option.some.injEq]
      exact hx
  · rw [hasSuffix, List.isSuffixOf_iff_suffix]
    rcases List.eq_nil_or_concat w with rfl | ⟨r, c, rfl⟩
    · simp [encodeAll]
    · rw [List.concat_eq_append, encodeAll_append, encodeAll_cons, encodeAll_nil, List.append_nil, List.getLast?_append]
      simp only [List.getLast?_singleton, Option.some_or, Option.some.injEq]
      constructor
      · intro h
        have hl : (34 : UInt8) ∈ encodeRune c := by
          obtain ⟨t, ht⟩ := h
          have e := congrArg List.getLast? ht
          rw [List.getLast?_append, List.getLast?_append] at e
          cases hg : (encodeRune c).getLast? with
          | none => exact absurd (List.getLast?_eq_none_iff.1 hg) (encodeRune_ne_nil c)
          | some y =>
            rw [hg] at e
            simp only [List.getLast?_singleton, Option.some_or, Option.some.injEq] at e
            rw [e]; exact List.mem_of_getLast? hg
        exact char_eq_of_toNat (mem_encodeRune hl (by decide))
      · rintro rfl
        exact ⟨encodeAll r, rfl⟩

theorem parseToken_iff (w : List Char) (v : Value) : parseToken (encodeAll w) = .ok v ↔ AtomReads w v := by
  unfold parseToken
  by_cases hq : Quoted w
  · rw [if_pos ((quoted_iff w).2 hq)]
    constructor
    · intro h
      split at h
      · cases h
      · cases hu : unquote (encodeAll w) with
        | none => rw [hu] at h; cases h
        | some s =>
          rw [hu] at h; cases h
          exact .str w s ((unquote_iff w s).1 hu)
    · intro h
      cases h with
      | str s h =>
        rw [if_neg, (unquote_iff w s).2 h]
        obtain ⟨body, rfl, _⟩ := h
        rw [encodeAll_cons, encodeAll_append, encodeAll_cons]
        have e : encodeRune '"' = [34] := rfl
        rw [e]; simp; omega
      | num x h _ => exact absurd hq h
      | sym h _ => exact absurd hq h
  · rw [if_neg fun h => hq ((quoted_iff w).1 h)]
    constructor
    · intro h
      cases hp : parseFloat (encodeAll w) with
      | none =>
        rw [hp] at h; cases h
        exact .sym w hq fun x hx => by rw [(parseFloat_iff _ x).2 hx] at hp; cases hp
      | some x =>
        rw [hp] at h; cases h
        exact .num w x hq ((parseFloat_iff _ x).1 hp)
    · intro h
      cases h with
      | str s h =>
        obtain ⟨body, rfl, _⟩ := h
        exact absurd ⟨rfl, by simp [List.getLast?_cons]⟩ hq
      | num x _ h => rw [(parseFloat_iff _ x).2 h]
      | sym _ h =>
        cases hp : parseFloat (encodeAll w) with
        | none => rfl
        | some x => exact absurd ((parseFloat_iff _ x).1 hp) (h x)

theorem byteReads_iff (ts : List (List Char)) (vs : List Value) : ByteReads (ts.map encodeAll) vs ↔ ReadsAll ts vs := by
  have e1 : encodeAll ['('] = b! "(" := by decide
  have e2 : encodeAll [')'] = b! ")" := by decide
  constructor
  · intro h
    generalize hb : ts.map encodeAll = bs at h
    induction h generalizing ts with
    | nil => rw [List.map_eq_nil_iff.1 hb]; exact .nil
    | atom t v ts' vs h1 h2 h3 _ ih =>
      obtain ⟨w, r, rfl, rfl, rfl⟩ := List.map_eq_cons_iff.1 hb
      exact .atom w v r vs (fun h => h1 (by rw [h, e1])) (fun h => h2 (by rw [h, e2])) ((parseToken_iff w v).1 h3) (ih r rfl)
    | list inner l ts' vs _ _ ih1 ih2 =>
      obtain ⟨w, r, rfl, hw, hr⟩ := List.map_eq_cons_iff.1 hb
      obtain ⟨i, r2, rfl, rfl, hr2⟩ := List.map_eq_append_iff.1 hr
      obtain ⟨w2, r3, rfl, hw2, rfl⟩ := List.map_eq_cons_iff.1 hr2
      rw [encodeAll_inj (hw.trans e1.symm), encodeAll_inj (hw2.trans e2.symm)]
      exact .list i l r3 vs (ih1 i rfl) (ih2 r3 rfl)
  · intro h
    induction h with
    | nil => exact .nil
    | atom t v ts vs h1 h2 h3 _ ih =>
      exact .atom _ v _ vs (fun h => h1 (encodeAll_inj (h.trans e1.symm))) (fun h => h2 (encodeAll_inj (h.trans e2.symm)))
        ((parseToken_iff t v).2 h3) ih
    | list inner l ts vs _ _ ih1 ih2 =>
      have := ByteReads.list _ l _ vs ih1 ih2
      simpa [e1, e2] using this

theorem commandReads_iff (cs : List Char) (v : Value) : CommandReads cs v ↔
    if cs.head? = some '(' then ∃ used ignored, Tokens cs (used ++ ignored) ∧ ByteReads (used.map encodeAll) [v]
    else ∃ ts vs, Tokens cs ts ∧ ByteReads (ts.map encodeAll) vs ∧ v = .list vs := by
  simp only [CommandReads, byteReads_iff]

theorem ByteReads.append {a b : List Bytes} {u w : List Value} (ha : ByteReads a u) (hb : ByteReads b w) :
    ByteReads (a ++ b) (u ++ w) := by
  induction ha with
  | nil => exact hb
  | atom t v ts vs h1 h2 h3 _ ih => exact .atom t v _ _ h1 h2 h3 ih
  | list inner l ts vs hi _ _ ih =>
    have := ByteReads.list inner l _ _ hi ih
    simpa using this

theorem parse_sound : ∀ f, (∀ ts v r, parseTokens f ts = .ok (v, r) → ∃ used, ts = used ++ r ∧ ByteReads used [v] ∧ used ≠ []) ∧
    (∀ ts vs r, parseList f ts = .ok (vs, r) → ∃ used, ts = used ++ b! ")" :: r ∧ ByteReads used vs) := by
  intro f
  induction f with
  | zero => exact ⟨fun ts v r h => by simp [parseTokens] at h, fun ts vs r h => by simp [parseList] at h⟩
  | succ f ih =>
    obtain ⟨ih1, ih2⟩ := ih
    constructor
    · intro ts v r h
      cases ts with
      | nil => simp [parseTokens] at h
      | cons t rest =>
        rw [parseTokens] at h
        split at h
        · rename_i ht
          split at h
          · rename_i vs r' hl
            simp only [Res.ok.injEq, Prod.mk.injEq] at h
            obtain ⟨rfl, rfl⟩ := h
            obtain ⟨used, h1, h2⟩ := ih2 _ _ _ hl
            refine ⟨b! "(" :: (used ++ b! ")" :: []), by rw [ht, h1]; simp, .list used vs [] [] h2 .nil, by simp⟩
          · cases h
          · cases h
        · split at h
          · cases h
          · rename_i h1 h2
            split at h
            · rename_i v' hv
              simp only [Res.ok.injEq, Prod.mk.injEq] at h
              obtain ⟨rfl, rfl⟩ := h
              exact ⟨[t], rfl, .atom t _ [] [] h1 h2 hv .nil, by simp⟩
            · cases h
    · intro ts vs r h
      cases ts with
      | nil => simp [parseList] at h
      | cons t rest =>
        rw [parseList] at h
        split at h
        · rename_i ht
          simp only [Res.ok.injEq, Prod.mk.injEq] at h
          obtain ⟨rfl, rfl⟩ := h
          exact ⟨[], by rw [ht]; rfl, .nil⟩
        · split at h
          · rename_i v r' hv
            split at h
            · rename_i vs' r'' hl
              simp only [Res.ok.injEq, Prod.mk.injEq] at h
              obtain ⟨rfl, rfl⟩ := h
              obtain ⟨u1, h1, h2, _⟩ := ih1 _ _ _ hv
              obtain ⟨u2, h3, h4⟩ := ih2 _ _ _ hl
              exact ⟨u1 ++ u2, by rw [h1, h3]; simp, by simpa using h2.append h4⟩
            · cases h
            · cases h
          · cases h
          · cases h

theorem parse_total : ∀ f, (∀ ts : List Bytes, 2 * ts.length + 1 ≤ f → parseTokens f ts ≠ .panic) ∧
    (∀ ts : List Bytes, 2 * ts.length + 2 ≤ f → parseList f ts ≠ .panic) := by
  intro f
  induction f with
  | zero => exact ⟨fun ts h => by omega, fun ts h => by omega⟩
  | succ f ih =>
    obtain ⟨ih1, ih2⟩ := ih
    constructor
    · intro ts hf
      cases ts with
      | nil => simp [parseTokens]
      | cons t rest =>
        simp only [List.length_cons] at hf
        rw [parseTokens]
        split
        · have := ih2 rest (by omega)
          split
          · simp
          · simp
          · rename_i h; exact absurd h this
        · split
          · simp
          · split <;> simp
    · intro ts hf
      cases ts with
      | nil => simp [parseList]
      | cons t rest =>
        simp only [List.length_cons] at hf
        rw [parseList]
        split
        · simp
        · have h1 := ih1 (t :: rest) (by simp only [List.length_cons]; omega)
          split
          · rename_i v r hv
            obtain ⟨used, h2, _, h3⟩ := (parse_sound f).1 _ _ _ hv
            have hl : rest.length + 1 = used.length + r.length := by
              have := congrArg List.length h2
              simpa using this
            have hu : 1 ≤ used.length := by cases used <;> simp at h3 ⊢
            have := ih2 r (by omega)
            split
            · simp
            · simp
            · rename_i h; exact absurd h this
          · simp
          · rename_i h; exact absurd h h1

theorem list_complete {used : List Bytes} {vs : List Value} (h : ByteReads used vs) : ∀ f r, 2 * used.length + 2 ≤ f →
    parseList f (used ++ b! ")" :: r) = .ok (vs, r) := by
  induction h with
  | nil =>
    intro f r hf
    cases f with
    | zero => omega
    | succ f => rw [List.nil_append, parseList, if_pos rfl]
  | atom t v ts vs h1 h2 h3 _ ih =>
    intro f r hf
    simp only [List.length_cons] at hf
    cases f with
    | zero => omega
    | succ f =>
      cases f with
      | zero => omega
      | succ f =>
        rw [List.cons_append, parseList, if_neg h2, parseTokens, if_neg h1, if_neg h2, h3]
        simp only
        rw [ih (f + 1) r (by omega)]
  | list inner l ts vs _ _ ih1 ih2 =>
    intro f r hf
    simp only [List.length_cons, List.length_append] at hf
    cases f with
    | zero => omega
    | succ f =>
      cases f with
      | zero => omega
      | succ f =>
        have e : b! "(" :: (inner ++ b! ")" :: ts) ++ b! ")" :: r = b! "(" :: (inner ++ b! ")" :: (ts ++ b! ")" :: r)) := by simp
        rw [e, parseList, if_neg (by decide), parseTokens, if_pos rfl, ih1 f _ (by omega)]
        simp only
        rw [ih2 (f + 1) r (by omega)]

/-- One expression at the head of a token list. -/
theorem one_complete {used : List Bytes} {v : Value} (h : ByteReads used [v]) (f : Nat) (r : List Bytes)
    (hf : 2 * used.length + 1 ≤ f) : parseTokens f (used ++ r) = .ok (v, r) := by
  cases f with
  | zero => omega
  | succ f =>
    generalize hvs : [v] = vs at h
    cases h with
    | nil => cases hvs
    | atom t v' ts vs h1 h2 h3 h4 =>
      simp only [List.cons.injEq] at hvs
      obtain ⟨rfl, rfl⟩ := hvs
      cases h4
      rw [List.cons_append, parseTokens, if_neg h1, if_neg h2, h3]
      rfl
    | list inner l ts vs h1 h2 =>
      simp only [List.cons.injEq] at hvs
      obtain ⟨rfl, rfl⟩ := hvs
      cases h2
      simp only [List.length_cons, List.length_append, List.length_nil] at hf
      have e : b! "(" :: (inner ++ [b! ")"]) ++ r = b! "(" :: (inner ++ b! ")" :: r) := by simp
      rw [e, parseTokens, if_pos rfl, list_complete h1 f r (by omega)]

theorem shell_sound : ∀ f ts vs, shellLoop f ts = .ok vs → ByteReads ts vs := by
  intro f
  induction f with
  | zero => intro ts vs h; simp [shellLoop] at h
  | succ f ih =>
    intro ts vs h
    cases ts with
    | nil => simp only [shellLoop, Res.ok.injEq] at h; subst h; exact .nil
    | cons t rest =>
      rw [shellLoop] at h
      split at h
      · split at h
        · rename_i v r hv
          split at h
          · rename_i vs' hl
            simp only [Res.ok.injEq] at h; subst h
            obtain ⟨used, h1, h2, _⟩ := (parse_sound _).1 _ _ _ hv
            rw [h1]
            exact h2.append (ih _ _ hl)
          · cases h
          · cases h
        · cases h
        · cases h
      · split at h
        · cases h
        · rename_i h1 h2
          split at h
          · cases h
          · rename_i v hv
            split at h
            · rename_i vs' hl
              simp only [Res.ok.injEq] at h; subst h
              exact .atom t v _ _ h1 h2 hv (ih _ _ hl)
            · cases h
            · cases h

theorem shell_total : ∀ f (ts : List Bytes), ts.length < f → shellLoop f ts ≠ .panic := by
  intro f
  induction f with
  | zero => intro ts h; omega
  | succ f ih =>
    intro ts hf
    cases ts with
    | nil => simp [shellLoop]
    | cons t rest =>
      simp only [List.length_cons] at hf
      rw [shellLoop]
      split
      · have h1 := (parse_total (tokenFuel (t :: rest))).1 (t :: rest) (by simp [tokenFuel])
        split
        · rename_i v r hv
          obtain ⟨used, h2, _, h3⟩ := (parse_sound _).1 _ _ _ hv
          have hl : rest.length + 1 = used.length + r.length := by
            have := congrArg List.length h2
            simpa using this
          have hu : 1 ≤ used.length := by cases used <;> simp at h3 ⊢
          have := ih r (by omega)
          split
          · simp
          · simp
          · rename_i h; exact absurd h this
        · simp
        · rename_i h; exact absurd h h1
      · split
        · simp
        · split
          · simp
          · have := ih rest (by omega)
            split
            · simp
            · simp
            · rename_i h; exact absurd h this

theorem shell_complete {ts : List Bytes} {vs : List Value} (h : ByteReads ts vs) : ∀ f, ts.length < f → shellLoop f ts = .ok vs := by
  induction h with
  | nil => intro f hf; cases f with
    | zero => omega
    | succ f => rfl
  | atom t v ts vs h1 h2 h3 _ ih =>
    intro f hf
    simp only [List.length_cons] at hf
    cases f with
    | zero => omega
    | succ f =>
      rw [shellLoop, if_neg h1, if_neg h2, h3]
      simp only
      rw [ih f (by omega)]
  | list inner l ts vs h1 _ _ ih =>
    intro f hf
    simp only [List.length_cons, List.length_append] at hf
    cases f with
    | zero => omega
    | succ f =>
      have e : b! "(" :: (inner ++ b! ")" :: ts) = b! "(" :: (inner ++ [b! ")"]) ++ ts := by simp
      have hone := one_complete (.list inner l [] [] h1 .nil) (tokenFuel (b! "(" :: (inner ++ b! ")" :: ts))) ts
        (by simp [tokenFuel]; omega)
      rw [← e] at hone
      rw [shellLoop, if_pos rfl, hone]
      simp only
      rw [ih f (by omega)]

/-! ### Lines -/

theorem parseShellLike_ok_iff (line : Bytes) (v : Value) : parseShellLike line = .ok v ↔
    ∃ ts vs, Tokens (decodeAll line) ts ∧ ByteReads (ts.map encodeAll) vs ∧ v = .list vs := by
  unfold parseShellLike
  constructor
  · intro h
    split at h
    · cases h
    · rename_i tokens ht
      obtain ⟨tcs, rfl, h2⟩ := (tokenize_ok_iff _ _).1 ht
      split at h
      · rename_i vs hl
        simp only [Res.ok.injEq] at h
        exact ⟨tcs, vs, h2, shell_sound _ _ _ hl, h.symm⟩
      · cases h
      · cases h
  · rintro ⟨ts, vs, h1, h2, rfl⟩
    rw [(tokenize_ok_iff _ _).2 ⟨ts, rfl, h1⟩]
    simp only
    rw [shell_complete h2 _ (by omega)]

theorem parseSExpression_ok_iff (line : Bytes) (v : Value) : parseSExpression line = .ok v ↔
    ∃ used ignored, Tokens (decodeAll line) (used ++ ignored) ∧ ByteReads (used.map encodeAll) [v] := by
  unfold parseSExpression
  constructor
  · intro h
    split at h
    · cases h
    · rename_i tokens ht
      obtain ⟨tcs, rfl, h2⟩ := (tokenize_ok_iff _ _).1 ht
      split at h
      · rename_i v' r hl
        simp only [Res.ok.injEq] at h; subst h
        obtain ⟨used, h3, h4, _⟩ := (parse_sound _).1 _ _ _ hl
        obtain ⟨a, b, rfl, rfl, rfl⟩ := List.map_eq_append_iff.1 h3
        exact ⟨a, b, h2, h4⟩
      · cases h
      · cases h
  · rintro ⟨used, ignored, h1, h2⟩
    rw [(tokenize_ok_iff _ _).2 ⟨_, rfl, h1⟩]
    simp only [List.map_append]
    rw [one_complete h2 _ _ (by simp [tokenFuel]; omega)]

theorem parseLine_total (line : Bytes) : parseLine line ≠ .panic := by
  unfold parseLine
  split
  · unfold parseSExpression
    split
    · simp
    · rename_i tokens _
      have := (parse_total (tokenFuel tokens)).1 tokens (by simp [tokenFuel])
      split
      · simp
      · simp
      · rename_i h; exact absurd h this
  · unfold parseShellLike
    split
    · simp
    · rename_i tokens _
      have := shell_total (tokens.length + 1) tokens (by omega)
      split
      · simp
      · simp
      · rename_i h; exact absurd h this

theorem hasPrefix_paren (cs : List Char) : hasPrefix (encodeAll cs) (b! "(") = true ↔ cs.head? = some '(' := by
  cases cs with
  | nil => simp [hasPrefix, encodeAll]
  | cons c r =>
    obtain ⟨x, t, he, ha, hb⟩ := encodeRune_head c
    rw [encodeAll_cons, he]
    simp only [hasPrefix, List.cons_append, List.isPrefixOf, Bool.and_true, List.head?_cons, Option.some.injEq, beq_iff_eq]
    constructor
    · rintro rfl
      by_cases h128 : c.toNat < 128
      · exact char_eq_of_toNat (ha h128).1.symm
      · exact absurd (hb (by omega)) (by decide)
    · rintro rfl
      have : encodeRune '(' = [40] := rfl
      rw [this] at he
      simp only [List.cons.injEq] at he
      exact he.1

theorem parseLine_ok_iff (cs : List Char) (v : Value) : parseLine (encodeAll cs) = .ok v ↔ CommandReads cs v := by
  rw [commandReads_iff]
  unfold parseLine
  by_cases h : cs.head? = some '('
  · rw [if_pos ((hasPrefix_paren cs).2 h), if_pos h, parseSExpression_ok_iff, decodeAll_encodeAll]
  · rw [if_neg (fun hh => h ((hasPrefix_paren cs).1 hh)), if_neg h, parseShellLike_ok_iff, decodeAll_encodeAll]

end Texted
