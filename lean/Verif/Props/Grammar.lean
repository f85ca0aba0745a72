import Verif.Lemmas.Grammar
import Verif.Props.Commands
/-
C41 (nothing dropped), C42 (the parser is total and exactly the grammar), C53 (line length limit).
-/
namespace Texted
open Spec

/-! ### Lines are segments -/

/-- The inside of an unterminated literal. -/
def OpenBody (s : List Char) : Prop := StrBody s ∨ ∃ t, StrBody t ∧ s = t ++ ['\\']

theorem lit_cases : ∀ (n : Nat) (r : List Char), r.length ≤ n → (∃ s r', StrBody s ∧ r = s ++ '"' :: r') ∨ OpenBody r := by
  intro n
  induction n with
  | zero =>
    intro r h
    cases r with
    | nil => exact Or.inr (Or.inl .nil)
    | cons c r => simp at h
  | succ n ih =>
    intro r h
    cases r with
    | nil => exact Or.inr (Or.inl .nil)
    | cons c r =>
      simp only [List.length_cons] at h
      by_cases h1 : c = '"'
      · subst h1; exact Or.inl ⟨[], r, .nil, rfl⟩
      · by_cases h2 : c = '\\'
        · subst h2
          cases r with
          | nil => exact Or.inr (Or.inr ⟨[], .nil, rfl⟩)
          | cons d r =>
            simp only [List.length_cons] at h
            rcases ih r (by omega) with ⟨s, r', hs, rfl⟩ | (hs | ⟨t, ht, rfl⟩)
            · exact Or.inl ⟨'\\' :: d :: s, r', .esc d s hs, rfl⟩
            · exact Or.inr (Or.inl (.esc d r hs))
            · exact Or.inr (Or.inr ⟨'\\' :: d :: t, .esc d t ht, rfl⟩)
        · rcases ih r (by omega) with ⟨s, r', hs, rfl⟩ | (hs | ⟨t, ht, rfl⟩)
          · exact Or.inl ⟨c :: s, r', .char c s h1 h2 hs, rfl⟩
          · exact Or.inr (Or.inl (.char c r h1 h2 hs))
          · exact Or.inr (Or.inr ⟨c :: t, .char c t h1 h2 ht, rfl⟩)

theorem line_cases : ∀ (n : Nat) (cs : List Char), cs.length ≤ n → OneCommand cs ∨
    (∃ seg rest, OneCommand seg ∧ cs = seg ++ ';' :: rest) ∨ (∃ a s, OneCommand a ∧ OpenBody s ∧ cs = a ++ '"' :: s) := by
  intro n
  induction n with
  | zero =>
    intro cs h
    cases cs with
    | nil => exact Or.inl .nil
    | cons c r => simp at h
  | succ n ih =>
    intro cs h
    cases cs with
    | nil => exact Or.inl .nil
    | cons c r =>
      simp only [List.length_cons] at h
      by_cases h1 : c = ';'
      · subst h1; exact Or.inr (Or.inl ⟨[], r, .nil, rfl⟩)
      · by_cases h2 : c = '"'
        · subst h2
          rcases lit_cases _ r (Nat.le_refl _) with ⟨s, r', hs, rfl⟩ | hs
          · simp only [List.length_append, List.length_cons] at h
            rcases ih r' (by omega) with h' | ⟨seg, rest, h', rfl⟩ | ⟨a, t, h', ht, rfl⟩
            · exact Or.inl (.lit s r' hs h')
            · exact Or.inr (Or.inl ⟨_, rest, .lit s seg hs h', by simp⟩)
            · exact Or.inr (Or.inr ⟨_, t, .lit s a hs h', ht, by simp⟩)
          · exact Or.inr (Or.inr ⟨[], r, .nil, hs, rfl⟩)
        · rcases ih r (by omega) with h' | ⟨seg, rest, h', rfl⟩ | ⟨a, t, h', ht, rfl⟩
          · exact Or.inl (.char c r h2 h1 h')
          · exact Or.inr (Or.inl ⟨_, rest, .char c seg h2 h1 h', rfl⟩)
          · exact Or.inr (Or.inr ⟨_, t, .char c a h2 h1 h', ht, rfl⟩)

theorem Spec.OneCommand.closed {cs : List Char} (h : OneCommand cs) : Closed cs := by
  induction h with
  | nil => exact .nil
  | char c r h1 _ _ ih => exact .char c r h1 ih
  | lit s r h1 _ ih => exact .lit s r h1 ih

theorem Spec.Closed.append {a b : List Char} (ha : Closed a) (hb : Closed b) : Closed (a ++ b) := by
  induction ha with
  | nil => exact hb
  | char c r h1 _ ih => exact .char c _ h1 ih
  | lit s r h1 _ ih =>
    have := Closed.lit s _ h1 ih
    simpa using this

theorem Spec.Closed.spaces {w : List Char} (h : ∀ c ∈ w, isSpace c = true) : Closed w := by
  induction w with
  | nil => exact .nil
  | cons c w ih =>
    refine .char c w ?_ (ih fun d hd => h d (by simp [hd]))
    rintro rfl
    exact absurd (h '"' (by simp)) (by decide)

theorem trim_decomp (cs : List Char) : ∃ w1 w2, cs = w1 ++ trimChars cs ++ w2 ∧ (∀ c ∈ w1, isSpace c = true) ∧ ∀ c ∈ w2, isSpace c = true := by
  refine ⟨cs.takeWhile isSpace, ((cs.dropWhile isSpace).reverse.takeWhile isSpace).reverse, ?_, takeWhile_space cs, ?_⟩
  · have h1 : cs.dropWhile isSpace = trimChars cs ++ ((cs.dropWhile isSpace).reverse.takeWhile isSpace).reverse := by
      unfold trimChars
      rw [← List.reverse_append, List.takeWhile_append_dropWhile, List.reverse_reverse]
    rw [List.append_assoc, ← h1, List.takeWhile_append_dropWhile]
  · intro c hc
    exact takeWhile_space _ c (List.mem_reverse.1 hc)

theorem closed_of_trim {cs : List Char} (h : Closed (trimChars cs)) : Closed cs := by
  obtain ⟨w1, w2, he, h1, h2⟩ := trim_decomp cs
  rw [he]
  exact ((Closed.spaces h1).append h).append (Closed.spaces h2)

theorem Spec.Word.closed {w : List Char} (h : Word w) : Closed w := by
  induction h with
  | nil => exact .nil
  | char c r h1 _ _ _ ih => exact .char c r h1 ih
  | lit s r h1 _ ih => exact .lit s r h1 ih

theorem Spec.Tokens.closed {cs : List Char} {ts : List (List Char)} (h : Tokens cs ts) : Closed cs := by
  induction h with
  | nil => exact .nil
  | blank c r ts hb _ ih => exact .char c r (by rcases hb with rfl | rfl | rfl | rfl <;> decide) ih
  | paren c r ts hp _ ih => exact .char c r (by rcases hp with rfl | rfl <;> decide) ih
  | word w r ts hw _ _ _ ih => exact hw.closed.append ih

theorem Spec.CommandReads.closed {cs : List Char} {v : Value} (h : CommandReads cs v) : Closed cs := by
  rw [commandReads_iff] at h
  split at h
  · obtain ⟨u, i, h, _⟩ := h; exact h.closed
  · obtain ⟨u, i, h, _⟩ := h; exact h.closed

theorem open_split {a s : List Char} (ha : OneCommand a) (hs : OpenBody s) :
    ∃ e, (a ++ '"' :: s).foldl splitStep {} = { current := a ++ '"' :: s, inQuotes := true, escapeNext := e } := by
  have h0 := splitStep_one ha [] []
  rw [List.foldl_append, show ({} : Lex) = { parts := [], current := [] } from rfl, h0, List.foldl_cons]
  have h1 : splitStep { parts := [], current := [] ++ a } '"' = { parts := [], current := a ++ ['"'], inQuotes := true } := by
    simp [splitStep, Lex.write]
  rw [h1]
  rcases hs with hs | ⟨t, ht, rfl⟩
  · exact ⟨false, by rw [splitStep_body hs]; simp⟩
  · refine ⟨true, ?_⟩
    rw [List.foldl_append, splitStep_body ht]
    simp [splitStep, Lex.write]

theorem open_not_closed {a s : List Char} (ha : OneCommand a) (hs : OpenBody s) : ¬ Closed (a ++ '"' :: s) := by
  obtain ⟨e, h⟩ := open_split ha hs
  intro hc
  have hq := foldl_q splitStep splitStep_q (a ++ '"' :: s) {}
  rw [h, show (({} : Lex)).q = (false, false) from rfl, closed_q hc] at hq
  exact absurd (show true = false from congrArg Prod.fst hq) (by decide)

theorem segment_iff {seg : List Char} (h : OneCommand seg) (p : List Value) : lineCommands seg = .ok p ↔ SegmentReads seg p := by
  rw [lineCommands, show ({} : Lex) = { parts := [], current := [] } from rfl, splitStep_one h, commands_eq]
  simp only [List.nil_append, List.map_singleton, parseCommands_cons, parseCommand, trimSpace_encodeAll, encodeAll_eq_nil]
  rw [show parseCommands [] = .ok [] from rfl, Res.cat_ok_nil]
  unfold SegmentReads
  show _ ↔ OneCommand seg ∧ ((trimChars seg = [] ∧ p = []) ∨ (trimChars seg ≠ [] ∧ ∃ v, CommandReads (trimChars seg) v ∧ p = [v]))
  split
  · rename_i ht
    simp only [Res.ok.injEq, h, ht, true_and, not_true, ne_eq, false_and, or_false]
    exact eq_comm
  · rename_i ht
    simp only [ht, false_and, false_or, ne_eq, not_false_eq_true, true_and, h]
    simp only [← parseLine_ok_iff]
    cases parseLine (encodeAll (trimChars seg)) with
    | ok v =>
      simp only [Res.bind, Res.ok.injEq]
      constructor
      · rintro rfl; exact ⟨v, rfl, rfl⟩
      · rintro ⟨w, rfl, rfl⟩; rfl
    | err e => simp [Res.bind]
    | panic => simp [Res.bind]

theorem Res.cat_eq_ok {ε α : Type} {x y : Res ε (List α)} {r : List α} : x.cat y = .ok r ↔ ∃ a b, x = .ok a ∧ y = .ok b ∧ r = a ++ b := by
  cases x <;> cases y <;> simp [Res.cat, Res.bind, eq_comm]

theorem line_sound : ∀ (n : Nat) (cs : List Char) (p : List Value), cs.length ≤ n → lineCommands cs = .ok p → LineReads cs p := by
  intro n
  induction n with
  | zero =>
    intro cs p hn h
    cases cs with
    | nil => exact .last [] p ((segment_iff .nil p).1 h)
    | cons c r => simp at hn
  | succ n ih =>
    intro cs p hn h
    rcases line_cases _ cs (Nat.le_refl _) with h1 | ⟨seg, rest, h1, rfl⟩ | ⟨a, s, h1, h2, rfl⟩
    · exact .last cs p ((segment_iff h1 p).1 h)
    · rw [lineCommands_semicolon _ _ h1.closed] at h
      obtain ⟨x, y, hx, hy, rfl⟩ := Res.cat_eq_ok.1 h
      simp only [List.length_append, List.length_cons] at hn
      exact .more seg rest x y ((segment_iff h1 x).1 hx) (ih rest y (by omega) hy)
    · exfalso
      obtain ⟨e, he⟩ := open_split h1 h2
      have hc := open_not_closed h1 h2
      rw [lineCommands, he, commands_eq] at h
      simp only [List.nil_append, List.map_singleton, parseCommands_cons, parseCommand, trimSpace_encodeAll, encodeAll_eq_nil] at h
      rw [show parseCommands [] = .ok [] from rfl, Res.cat_ok_nil] at h
      split at h
      · rename_i ht
        exact hc (closed_of_trim (by rw [ht]; exact .nil))
      · cases hl : parseLine (encodeAll (trimChars (a ++ '"' :: s))) with
        | ok v => exact hc (closed_of_trim ((parseLine_ok_iff _ v).1 hl).closed)
        | err e => rw [hl] at h; cases h
        | panic => rw [hl] at h; cases h

theorem line_complete {cs : List Char} {p : List Value} (h : LineReads cs p) : lineCommands cs = .ok p := by
  induction h with
  | last seg p h => exact (segment_iff h.1 p).2 h
  | more seg rest p q h _ ih =>
    rw [lineCommands_semicolon _ _ h.1.closed, (segment_iff h.1 p).2 h, ih]; rfl

theorem parseLines_ok_iff (ls : List Bytes) : ∀ p, parseLines ls = .ok p ↔ LinesRead ls p := by
  induction ls with
  | nil =>
    intro p
    constructor
    · intro h; simp only [parseLines, Res.ok.injEq] at h; subst h; exact .nil
    · intro h; cases h; rfl
  | cons l ls ih =>
    intro p
    have hm : maxToken = 65536 := rfl
    constructor
    · intro h
      by_cases hl : maxToken ≤ l.length
      · rw [parseLines, if_pos hl] at h; cases h
      · rw [parseLines_cons _ _ (by omega)] at h
        obtain ⟨x, y, hx, hy, rfl⟩ := Res.cat_eq_ok.1 h
        rw [parseRawLine_eq] at hx
        exact .cons l ls x y (by omega) (line_sound _ _ _ (Nat.le_refl _) hx) ((ih y).1 hy)
    · intro h
      cases h with
      | cons _ _ x y h1 h2 h3 =>
        rw [parseLines_cons _ _ (by omega), parseRawLine_eq, line_complete h2, (ih y).2 h3]; rfl

/-! ### C42 -/

/-- C42. Parsing is exactly the declarative grammar: a text is parsed to the program `p` if and only if the grammar reads
it as `p`. In particular the grammar is unambiguous. -/
theorem C42_parser_is_grammar (s : Bytes) (p : List Value) : parseString s = .ok p ↔ ScriptReads s p :=
  parseLines_ok_iff (splitByte nl s) p

/-- C42. The grammar is unambiguous. -/
theorem C42_unambiguous (s : Bytes) (p q : List Value) (hp : ScriptReads s p) (hq : ScriptReads s q) : p = q := by
  have h1 := (C42_parser_is_grammar s p).2 hp
  have h2 := (C42_parser_is_grammar s q).2 hq
  rw [h1] at h2
  exact Res.ok.inj h2

theorem parseCommands_total (cs : List Bytes) : parseCommands cs ≠ .panic := by
  induction cs with
  | nil => simp [parseCommands]
  | cons c cs ih =>
    rw [parseCommands]
    split
    · exact ih
    · have := parseLine_total (trimSpace c)
      split
      · split
        · simp
        · simp
        · rename_i h; exact absurd h ih
      · simp
      · rename_i h; exact absurd h this

theorem parseLines_total (ls : List Bytes) : parseLines ls ≠ .panic := by
  induction ls with
  | nil => simp [parseLines]
  | cons l ls ih =>
    rw [parseLines]
    split
    · simp
    · have : parseRawLine (dropCR l) ≠ .panic := parseCommands_total _
      split
      · split
        · simp
        · simp
        · rename_i h; exact absurd h ih
      · simp
      · rename_i h; exact absurd h this

/-- C42. Parsing any bytes gives a program or an error; it never panics (and, the fuel being sufficient, it terminates). -/
theorem C42_total (s : Bytes) : (∃ p, parseString s = .ok p) ∨ (∃ e, parseString s = .err e) := by
  cases h : parseString s with
  | ok p => exact Or.inl ⟨p, rfl⟩
  | err e => exact Or.inr ⟨e, rfl⟩
  | panic => exact absurd h (parseLines_total _)

/-- C42. The same for `ParseSexp`, the parser of single expressions. -/
theorem C42_sexp_total (s : Bytes) : (∃ p, parseSexp s = .ok p ∧ p.length ≤ 1) ∨ (∃ e, parseSexp s = .err e) := by
  unfold parseSexp
  simp only
  split
  · exact Or.inl ⟨[], rfl, by simp⟩
  · split
    · rename_i hp
      have := parseLine_total (trimSpace s)
      rw [parseLine, if_pos hp] at this
      split
      · exact Or.inl ⟨_, rfl, by simp⟩
      · exact Or.inr ⟨_, rfl⟩
      · rename_i h; exact absurd h this
    · split
      · exact Or.inl ⟨_, rfl, by simp⟩
      · exact Or.inr ⟨_, rfl⟩

theorem paren_tokens {cs : List Char} {u : List (List Char)} (h : Tokens cs u) (hh : cs.head? = some '(') :
    ∃ r, u = ['('] :: r := by
  cases h with
  | nil => simp at hh
  | blank c r ts hb _ =>
    simp only [List.head?_cons, Option.some.injEq] at hh
    subst hh
    rcases hb with h | h | h | h <;> exact absurd h (by decide)
  | paren c r ts hp _ =>
    simp only [List.head?_cons, Option.some.injEq] at hh
    subst hh
    exact ⟨_, rfl⟩
  | word w r ts hw hne _ _ =>
    exfalso
    cases hw with
    | nil => exact hne rfl
    | char c r' h1 h2 h3 _ =>
      simp only [List.cons_append, List.head?_cons, Option.some.injEq] at hh
      exact h3 (Or.inl hh)
    | lit s r' _ _ =>
      simp only [List.cons_append, List.head?_cons, Option.some.injEq] at hh
      exact absurd hh (by decide)

theorem CommandReads.isList {cs : List Char} {v : Value} (h : CommandReads cs v) : isList v := by
  rw [commandReads_iff] at h
  split at h
  · rename_i hh
    obtain ⟨u, i, h1, h2⟩ := h
    obtain ⟨r, hr⟩ := paren_tokens h1 hh
    generalize hvs : [v] = vs at h2
    cases u with
    | nil => cases h2; cases hvs
    | cons t u =>
      simp only [List.cons_append, List.cons.injEq] at hr
      obtain ⟨rfl, _⟩ := hr
      generalize hu : List.map encodeAll (['('] :: u) = us at h2
      cases h2 with
      | nil => cases hvs
      | atom t v' ts vs k1 _ _ _ =>
        exfalso
        rw [List.map_cons] at hu
        simp only [List.cons.injEq] at hu
        exact k1 hu.1.symm
      | list inner l ts vs _ _ =>
        simp only [List.cons.injEq] at hvs
        rw [hvs.1]; trivial
  · obtain ⟨_, vs, _, _, rfl⟩ := h; trivial

/-- C42. Every instruction of a parsed script is a list. -/
theorem C42_instructions_are_lists (s : Bytes) (p : List Value) (hp : parseString s = .ok p) : ∀ v ∈ p, isList v := by
  have h := (C42_parser_is_grammar s p).1 hp
  clear hp
  unfold ScriptReads at h
  generalize splitByte nl s = lines at h
  induction h with
  | nil => intro v hv; simp at hv
  | cons l ls p q h1 h2 _ ih =>
    generalize decodeAll (dropCR l) = cs at h2
    have hline : ∀ v ∈ p, isList v := by
      have seg : ∀ {seg : List Char} {p : List Value}, SegmentReads seg p → ∀ v ∈ p, isList v := by
        rintro sg p ⟨_, ⟨_, rfl⟩ | ⟨_, w, hw, rfl⟩⟩ v hv
        · simp at hv
        · simp only [List.mem_singleton] at hv; subst hv; exact CommandReads.isList hw
      clear ih h1
      induction h2 with
      | last sg p h => exact seg h
      | more sg rest p q h _ ih =>
        intro v hv
        rcases List.mem_append.1 hv with hv | hv
        · exact seg h v hv
        · exact ih v hv
    intro v hv
    rcases List.mem_append.1 hv with hv | hv
    · exact hline v hv
    · exact ih v hv

/-- C42. A script with an unterminated string literal on some line is not a program. -/
theorem C42_unterminated_string (s : Bytes) (l : Bytes) (hl : l ∈ splitByte nl s) (hopen : ¬ Closed (decodeAll (dropCR l))) :
    ∃ e, parseString s = .err e := by
  rcases C42_total s with ⟨p, hp⟩ | h
  · exfalso
    have h := (C42_parser_is_grammar s p).1 hp
    unfold ScriptReads at h
    clear hp
    generalize splitByte nl s = ls at *
    induction h with
    | nil => simp at hl
    | cons l' ls p q h1 h2 _ ih =>
      rcases List.mem_cons.1 hl with rfl | hl
      · apply hopen
        clear hopen h1 ih hl
        generalize decodeAll (dropCR l) = cs at h2 ⊢
        have seg : ∀ {seg : List Char} {p : List Value}, SegmentReads seg p → Closed seg := fun h => h.1.closed
        induction h2 with
        | last sg p h => exact seg h
        | more sg rest p q h _ ih => exact (seg h).append (.char ';' _ (by decide) ih)
      · exact ih hl
  · exact h

/-- Parentheses of a token list match: no prefix closes more than it opens, and in total as many are closed as opened. -/
def Balanced (ts : List Bytes) : Prop :=
  (∀ a b, ts = a ++ b → a.count (b! ")") ≤ a.count (b! "(")) ∧ ts.count (b! ")") = ts.count (b! "(")

theorem Balanced.append {a b : List Bytes} (ha : Balanced a) (hb : Balanced b) : Balanced (a ++ b) := by
  refine ⟨?_, by rw [List.count_append, List.count_append, ha.2, hb.2]⟩
  intro x y h
  rcases List.append_eq_append_iff.1 h with ⟨c, rfl, h2⟩ | ⟨c, rfl, rfl⟩
  · rw [List.count_append, List.count_append, ha.2]
    have := hb.1 c y h2
    omega
  · exact ha.1 x c rfl

theorem Balanced.wrap {a : List Bytes} (ha : Balanced a) : Balanced (b! "(" :: (a ++ [b! ")"])) := by
  have hne : (b! "(" == b! ")") = false := by decide
  have hne' : (b! ")" == b! "(") = false := by decide
  refine ⟨?_, ?_⟩
  · intro x y h
    cases x with
    | nil => simp
    | cons t x =>
      simp only [List.cons_append, List.cons.injEq] at h
      obtain ⟨rfl, h⟩ := h
      rw [List.count_cons, List.count_cons, hne]
      simp only [Bool.false_eq_true, if_false, beq_self_eq_true, if_true, Nat.add_zero]
      rcases List.append_eq_append_iff.1 h with ⟨c, rfl, h2⟩ | ⟨c, rfl, h2⟩
      · rw [List.count_append, List.count_append, ha.2]
        have : c.count (b! ")") ≤ 1 := by
          cases c with
          | nil => simp
          | cons z c =>
            simp only [List.cons_append, List.cons.injEq] at h2
            obtain ⟨rfl, h2⟩ := h2
            have : c = [] := (List.append_eq_nil_iff.1 h2.symm).1
            subst this; decide
        omega
      · have := ha.1 x c rfl
        omega
  · rw [List.count_cons, List.count_cons, List.count_append, List.count_append, ha.2, hne]
    simp

theorem ByteReads.balanced {ts : List Bytes} {vs : List Value} (h : ByteReads ts vs) : Balanced ts := by
  induction h with
  | nil => exact ⟨by intro a b h; have := List.append_eq_nil_iff.1 h.symm; rw [this.1]; simp, rfl⟩
  | atom t v ts vs h1 h2 _ _ ih =>
    have : Balanced [t] := by
      refine ⟨?_, ?_⟩
      · intro a b h
        cases a with
        | nil => simp
        | cons x a =>
          simp only [List.cons_append, List.cons.injEq] at h
          obtain ⟨rfl, h⟩ := h
          have : a = [] := (List.append_eq_nil_iff.1 h.symm).1
          subst this
          simp [h1, h2]
      · simp [h1, h2]
    exact this.append ih
  | list inner l ts vs _ _ ih1 ih2 =>
    have := ih1.wrap.append ih2
    simpa using this

/-- C42. A command whose parentheses (outside string literals) do not match is never a program: for a command in shell
syntax the whole token list is balanced, for one that starts with `(` the part that is read is. -/
theorem C42_balanced (cs : List Char) (v : Value) (h : parseLine (encodeAll cs) = .ok v) :
    ∃ used ignored, Tokens cs (used ++ ignored) ∧ Balanced (used.map encodeAll) ∧ (cs.head? ≠ some '(' → ignored = []) := by
  have h := (parseLine_ok_iff cs v).1 h
  rw [commandReads_iff] at h
  split at h
  · rename_i hh
    obtain ⟨u, i, h1, h2⟩ := h
    exact ⟨u, i, h1, h2.balanced, fun h => absurd hh h⟩
  · obtain ⟨u, vs, h1, h2, _⟩ := h
    exact ⟨u, [], by simpa using h1, h2.balanced, fun _ => rfl⟩

/-- Non-vacuity of C42: a script with a nested list, two commands on a line and a blank line. -/
example : parseString (b! "insert \"a;b\" (concat \"x\" 1); point\n\n(f (g))") =
    .ok [.list [.sym (b! "insert"), .str (b! "a;b"), .list [.sym (b! "concat"), .str (b! "x"), .num (.fin false 1 0)]],
      .list [.sym (b! "point")], .list [.sym (b! "f"), .list [.sym (b! "g")]]] := by decide +kernel

/-! ### C41 -/

/-- C41. Tokenizing loses nothing but blanks: the tokens, written one after the other, are the text up to blanks. -/
theorem C41_tokens_keep_text (line : Bytes) (ts : List Bytes) (h : tokenize line = .ok ts) :
    ∃ tcs : List (List Char), ts = tcs.map encodeAll ∧ tcs.flatten.filter (fun c => !decide (blank c)) = (decodeAll line).filter (fun c => !decide (blank c)) := by
  obtain ⟨tcs, h1, h2⟩ := (tokenize_ok_iff line ts).1 h
  refine ⟨tcs, h1, ?_⟩
  clear h1 h
  generalize decodeAll line = cs at h2 ⊢
  induction h2 with
  | nil => rfl
  | blank c r ts hb _ ih => rw [List.filter_cons, if_neg (by simp [hb]), ih]
  | paren c r ts hp _ ih => rw [List.flatten_cons, List.filter_append, ih, ← List.filter_append]; rfl
  | word w r ts _ _ _ _ ih => rw [List.flatten_cons, List.filter_append, ih, ← List.filter_append]

theorem map_encodeAll_inj : ∀ {a b : List (List Char)}, a.map encodeAll = b.map encodeAll → a = b
  | [], [], _ => rfl
  | [], _ :: _, h => nomatch h
  | _ :: _, [], h => nomatch h
  | x :: a, y :: b, h => by
    rw [List.map_cons, List.map_cons, List.cons.injEq] at h
    rw [encodeAll_inj h.1, map_encodeAll_inj h.2]

/-- C41. In shell syntax every token of the line is part of the program: the values read are exactly those the whole
token list spells. -/
theorem C41_shell_uses_every_token (line : Bytes) (v : Value) :
    parseShellLike line = .ok v ↔ ∃ ts vs, tokenize line = .ok (ts.map encodeAll) ∧ ReadsAll ts vs ∧ v = .list vs := by
  rw [parseShellLike_ok_iff]
  simp only [byteReads_iff]
  constructor
  · rintro ⟨ts, vs, h1, h2, h3⟩
    exact ⟨_, vs, (tokenize_ok_iff _ _).2 ⟨ts, rfl, h1⟩, h2, h3⟩
  · rintro ⟨ts, vs, h1, h2, h3⟩
    obtain ⟨tcs, he, h4⟩ := (tokenize_ok_iff _ _).1 h1
    rw [← map_encodeAll_inj he] at h4
    exact ⟨ts, vs, h4, h2, h3⟩

/-- C41, the failure. For a command that starts with `(`, whatever tokens follow the first expression are dropped: they
do not influence the result at all. -/
theorem C41_false_after_paren (line : Bytes) (used : List (List Char)) (ignored : List Bytes) (v : Value)
    (ht : tokenize line = .ok (used.map encodeAll ++ ignored)) (hv : ReadsAll used [v]) : parseSExpression line = .ok v := by
  unfold parseSExpression
  rw [ht]
  simp only
  rw [one_complete ((byteReads_iff _ _).2 hv) _ _ (by simp [tokenFuel]; omega)]

/-- C41, exactly, for commands that start with `(`: the value is what some first part of the tokens spells, and the rest of the
tokens is not looked at. -/
theorem C41_paren_exact (line : Bytes) (v : Value) :
    parseSExpression line = .ok v ↔ ∃ used ignored, tokenize line = .ok (used.map encodeAll ++ ignored) ∧ ReadsAll used [v] := by
  constructor
  · intro h
    obtain ⟨us, is, h1, h2⟩ := (parseSExpression_ok_iff line v).1 h
    exact ⟨us, is.map encodeAll, (tokenize_ok_iff _ _).2 ⟨us ++ is, by simp, h1⟩, (byteReads_iff _ _).1 h2⟩
  · rintro ⟨us, is, h1, h2⟩
    exact C41_false_after_paren line us is v h1 h2

/-- C41, the failure, concretely: the deletion is silently skipped, even an unmatched parenthesis is. -/
theorem C41_false_example :
    parseString (b! "(point) (delete-line) ) x") = .ok [.list [.sym (b! "point")]] ∧
    parseString (b! "point (delete-line) ) x") = .err (b! "unexpected closing parenthesis in shell-like syntax") := ⟨by decide +kernel, by decide +kernel⟩

/-! ### C53 -/

theorem parseLines_long (ls : List Bytes) (l : Bytes) (hl : l ∈ ls) (hlen : 65536 ≤ l.length) : ∃ e, parseLines ls = .err e := by
  cases h : parseLines ls with
  | ok p =>
    exfalso
    replace h := (parseLines_ok_iff ls p).1 h
    induction h with
    | nil => simp at hl
    | cons l' ls p q h1 _ _ ih =>
      rcases List.mem_cons.1 hl with rfl | hl
      · omega
      · exact ih hl
  | err e => exact ⟨e, rfl⟩
  | panic => exact absurd h (parseLines_total _)

/-- C53. A script with a line of 65536 bytes or more is rejected, wherever the line is. -/
theorem C53_long_line_rejected (s l : Bytes) (hl : l ∈ splitByte nl s) (hlen : 65536 ≤ l.length) :
    ∃ e, parseString s = .err e := parseLines_long _ l hl hlen

/-- C53. If the lines before it are fine, the error is the scanner's. -/
theorem C53_long_line_error (s : Bytes) (pre post : List Bytes) (l : Bytes) (p : List Value)
    (hs : splitByte nl s = pre ++ l :: post) (hpre : LinesRead pre p) (hlen : 65536 ≤ l.length) :
    parseString s = .err (b! "reading input: bufio.Scanner: token too long") := by
  unfold parseString scanLines
  rw [hs]
  clear hs
  have hm : maxToken = 65536 := rfl
  induction hpre with
  | nil => rw [List.nil_append, parseLines, if_pos (by omega)]
  | cons l' ls p q h1 h2 _ ih =>
    rw [List.cons_append, parseLines_cons _ _ (by omega), ih, parseRawLine_eq, line_complete h2]; rfl

/-- The results of parsing each line by itself, in order. -/
def eachLine : List Bytes → Res Bytes (List Value)
  | [] => .ok []
  | l :: ls => (parseString l).cat (eachLine ls)

/-- C53. If every line is shorter, each is parsed in full and by itself: the program is the programs of the lines one
after the other, and an error is the first line's error. -/
theorem C53_short_lines (s : Bytes) (h : ∀ l ∈ splitByte nl s, l.length < 65536) :
    parseString s = eachLine (splitByte nl s) := by
  have hnl : ∀ l ∈ splitByte nl s, ∀ x ∈ l, x ≠ nl := by
    clear h
    induction s with
    | nil => intro l hl; simp [splitByte] at hl; subst hl; simp
    | cons x s ih =>
      intro l hl
      unfold splitByte at hl
      split at hl
      · rcases List.mem_cons.1 hl with rfl | hl
        · simp
        · exact ih l hl
      · rename_i hx
        split at hl
        · simp only [List.mem_singleton] at hl; subst hl; simpa using hx
        · rename_i a b hab
          rcases List.mem_cons.1 hl with rfl | hl
          · intro y hy
            rcases List.mem_cons.1 hy with rfl | hy
            · exact hx
            · exact ih a (by rw [hab]; simp) y hy
          · exact ih l (by rw [hab]; simp [hl])
  have hm : maxToken = 65536 := rfl
  unfold parseString scanLines
  generalize splitByte nl s = ls at *
  induction ls with
  | nil => rfl
  | cons l ls ih =>
    have hl := h l (by simp)
    rw [parseLines_cons _ _ (by omega), eachLine, ih (fun w hw => h w (by simp [hw])) (fun w hw => hnl w (by simp [hw]))]
    congr 1
    unfold parseString scanLines
    rw [splitByte_last nl l (hnl l (by simp)), parseLines_cons _ _ (by omega)]
    simp [parseLines, Res.cat_ok_nil]

/-- Non-vacuity of C53: scripts of one long line, and the boundary. One byte decides. -/
example (n : Nat) : ((65536 ≤ n) → ∃ e, parseString (List.replicate n 97) = .err e) ∧
    (n < 65536 → parseString (List.replicate n 97) = eachLine [List.replicate n 97]) := by
  have h : splitByte nl (List.replicate n (97 : UInt8)) = [List.replicate n 97] :=
    splitByte_last nl _ (by intro x hx; rw [(List.mem_replicate.1 hx).2]; decide)
  refine ⟨fun hn => C53_long_line_rejected _ (List.replicate n 97) (by rw [h]; exact List.mem_singleton_self _) (by rw [List.length_replicate]; exact hn), fun hn => ?_⟩
  rw [C53_short_lines _ (by rw [h]; intro l hl; rw [List.mem_singleton.1 hl, List.length_replicate]; exact hn), h]

end Texted
