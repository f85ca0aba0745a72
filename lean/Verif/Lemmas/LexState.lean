import Verif.Lemmas.Parse
/- Quote state of the lexer, splitting at semicolons, decoding of concatenations. -/
namespace Texted
open Spec

/-! ### quote state -/

/-- The lexers' quote state after one character. -/
def qstep (st : Bool × Bool) (c : Char) : Bool × Bool :=
  if st.2 then (st.1, false)
  else if c = '\\' then (st.1, st.1)
  else if c = '"' then (!st.1, false)
  else (st.1, false)

/-- The quote state of a lexer. -/
def Lex.q (x : Lex) : Bool × Bool := (x.inQuotes, x.escapeNext)

theorem flushNonempty_q (x : Lex) : x.flushNonempty.q = x.q := by
  unfold Lex.flushNonempty; split <;> rfl

theorem splitStep_q (x : Lex) (c : Char) : (splitStep x c).q = qstep x.q c := by
  cases x with | mk p cur q e =>
  unfold splitStep qstep
  simp only [Lex.q]
  cases e
  · simp only [Bool.false_eq_true, if_false]
    split
    · rfl
    · split
      · rfl
      · split
        · split <;> rfl
        · rfl
  · simp only [if_true]; rfl

theorem tokenStep_q (x : Lex) (c : Char) : (tokenStep x c).q = qstep x.q c := by
  have hf := flushNonempty_q x
  cases x with | mk p cur q e =>
  unfold tokenStep qstep
  simp only [Lex.q] at *
  cases e
  · simp only [Bool.false_eq_true, if_false]
    split
    · rfl
    · split
      · rfl
      · split
        · split
          · rfl
          · exact hf
        · split
          · split
            · rfl
            · exact hf
          · rfl
  · simp only [if_true]; rfl

theorem foldl_q (step : Lex → Char → Lex) (h : ∀ x c, (step x c).q = qstep x.q c) (cs : List Char) :
    ∀ x, (cs.foldl step x).q = cs.foldl qstep x.q := by
  induction cs with
  | nil => intro x; rfl
  | cons c cs ih => intro x; rw [List.foldl_cons, List.foldl_cons, ih, h]

theorem qstep_escape (cs : List Char) : ∀ st : Bool × Bool, (st.2 = true → st.1 = true) →
    (cs.foldl qstep st).2 = true → (cs.foldl qstep st).1 = true := by
  induction cs with
  | nil => intro st h; exact h
  | cons c cs ih =>
    intro st h
    rw [List.foldl_cons]
    apply ih
    unfold qstep
    repeat' split
    all_goals simp

/-- What must follow in each quote state for the text to be closed. -/
def ClosedFrom : Bool → Bool → List Char → Prop
  | false, _, cs => Closed cs
  | true, false, cs => ∃ s r, cs = s ++ '"' :: r ∧ StrBody s ∧ Closed r
  | true, true, cs => ∃ c t, cs = c :: t ∧ ∃ s r, t = s ++ '"' :: r ∧ StrBody s ∧ Closed r

theorem closedFrom_iff (cs : List Char) : ∀ q e, (e = true → q = true) →
    ((cs.foldl qstep (q, e)).1 = false ↔ ClosedFrom q e cs) := by
  induction cs with
  | nil =>
    intro q e h
    cases q <;> cases e <;> simp [ClosedFrom, Closed.nil]
  | cons c cs ih =>
    intro q e h
    rw [List.foldl_cons]
    cases q with
    | false =>
      have he : e = false := by cases e <;> simp at h ⊢
      subst he
      by_cases hb : c = '\\'
      · subst hb
        have : qstep (false, false) '\\' = (false, false) := by simp [qstep]
        rw [this, ih false false (by simp)]
        show Closed cs ↔ Closed ('\\' :: cs)
        constructor
        · exact fun h => .char _ _ (by decide) h
        · intro h; cases h with
          | char _ _ _ h => exact h
      · by_cases hq : c = '"'
        · subst hq
          have : qstep (false, false) '"' = (true, false) := by simp [qstep]
          rw [this, ih true false (by simp)]
          show (∃ s r, cs = s ++ '"' :: r ∧ StrBody s ∧ Closed r) ↔ Closed ('"' :: cs)
          constructor
          · rintro ⟨s, r, rfl, h1, h2⟩; exact .lit s r h1 h2
          · intro h
            generalize hg : '"' :: cs = l at h
            cases h with
            | nil => cases hg
            | char d r hd _ => simp only [List.cons.injEq] at hg; exact absurd hg.1.symm hd
            | lit s r h1 h2 => simp only [List.cons.injEq, true_and] at hg; exact ⟨s, r, hg, h1, h2⟩
        · have : qstep (false, false) c = (false, false) := by simp [qstep, hb, hq]
          rw [this, ih false false (by simp)]
          show Closed cs ↔ Closed (c :: cs)
          constructor
          · exact fun h => .char _ _ hq h
          · intro h
            generalize hg : c :: cs = l at h
            cases h with
            | nil => cases hg
            | char d r hd h => simp only [List.cons.injEq] at hg; rw [hg.2]; exact h
            | lit s r _ _ => simp only [List.cons.injEq] at hg; exact absurd hg.1 hq
    | true =>
      cases e with
      | true =>
        have : qstep (true, true) c = (true, false) := by simp [qstep]
        rw [this, ih true false (by simp)]
        simp only [ClosedFrom]
        constructor
        · exact fun h => ⟨c, cs, rfl, h⟩
        · rintro ⟨d, t, hd, h⟩; simp only [List.cons.injEq] at hd; rw [hd.2]; exact h
      | false =>
        by_cases hb : c = '\\'
        · subst hb
          have : qstep (true, false) '\\' = (true, true) := by simp [qstep]
          rw [this, ih true true (by simp)]
          simp only [ClosedFrom]
          constructor
          · rintro ⟨d, t, rfl, s, r, rfl, h1, h2⟩
            exact ⟨'\\' :: d :: s, r, by simp, .esc d s h1, h2⟩
          · rintro ⟨s, r, hs, h1, h2⟩
            cases h1 with
            | nil => simp at hs
            | char d s' hd hd' _ => simp only [List.cons_append, List.cons.injEq] at hs; exact absurd hs.1.symm hd'
            | esc d s' h1 =>
              simp only [List.cons_append, List.cons.injEq, true_and] at hs
              exact ⟨d, _, hs, s', r, rfl, h1, h2⟩
        · by_cases hq : c = '"'
          · subst hq
            have : qstep (true, false) '"' = (false, false) := by simp [qstep]
            rw [this, ih false false (by simp)]
            simp only [ClosedFrom]
            constructor
            · exact fun h => ⟨[], cs, rfl, .nil, h⟩
            · rintro ⟨s, r, hs, h1, h2⟩
              cases h1 with
              | nil => simp only [List.nil_append, List.cons.injEq, true_and] at hs; rw [hs]; exact h2
              | char d s' hd hd' _ => simp only [List.cons_append, List.cons.injEq] at hs; exact absurd hs.1.symm hd
              | esc d s' h1 => simp at hs
          · have : qstep (true, false) c = (true, false) := by simp [qstep, hb, hq]
            rw [this, ih true false (by simp)]
            simp only [ClosedFrom]
            constructor
            · rintro ⟨s, r, rfl, h1, h2⟩; exact ⟨c :: s, r, by simp, .char c s hq hb h1, h2⟩
            · rintro ⟨s, r, hs, h1, h2⟩
              cases h1 with
              | nil => simp only [List.nil_append, List.cons.injEq] at hs; exact absurd hs.1 hq
              | char d s' hd hd' h1 =>
                simp only [List.cons_append, List.cons.injEq] at hs
                exact ⟨s', r, hs.2, h1, h2⟩
              | esc d s' h1 => simp only [List.cons_append, List.cons.injEq] at hs; exact absurd hs.1 hb

/-- The lexers end outside quotes exactly on closed text. -/
theorem closed_iff (cs : List Char) : (cs.foldl qstep (false, false)).1 = false ↔ Closed cs :=
  closedFrom_iff cs false false (by simp)

theorem closed_q {cs : List Char} (h : Closed cs) : cs.foldl qstep (false, false) = (false, false) := by
  have h1 := (closed_iff cs).2 h
  have h2 := qstep_escape cs (false, false) (by simp)
  generalize cs.foldl qstep (false, false) = st at *
  cases st with | mk q e =>
  simp only at h1 h2
  subst h1
  cases e
  · rfl
  · simp at h2

/-! ### decoding concatenations -/

theorem decodeRune_pos (x : UInt8) (s : Bytes) : 1 ≤ (decodeRune (x :: s)).2 := by
  by_cases h : (decodeRune (x :: s)).2 = 1 ∧ (decodeRune (x :: s)).1 = runeError
  · omega
  · exact (encode_decode (x :: s) (by simp) h).2.1

theorem decodeRune_le (x : UInt8) (s : Bytes) : (decodeRune (x :: s)).2 ≤ s.length + 1 := by
  by_cases h : (decodeRune (x :: s)).2 = 1 ∧ (decodeRune (x :: s)).1 = runeError
  · omega
  · exact (encode_decode (x :: s) (by simp) h).2.2

theorem decodeAux_fuel (f : Nat) : ∀ s : Bytes, s.length ≤ f → decodeAux f s = decodeAll s := by
  have key : ∀ f g (s : Bytes), s.length ≤ f → s.length ≤ g → decodeAux f s = decodeAux g s := by
    intro f
    induction f with
    | zero =>
      intro g s hs _
      have : s = [] := List.length_eq_zero_iff.1 (by omega)
      subst this
      cases g <;> rfl
    | succ f ih =>
      intro g s hs hg
      cases s with
      | nil => cases g <;> rfl
      | cons x s =>
        cases g with
        | zero => simp at hg
        | succ g =>
          have hp := decodeRune_pos x s
          simp only [List.length_cons] at hs hg
          rw [decodeAux, decodeAux]
          rw [ih g]
          · simp only [List.length_drop, List.length_cons]; omega
          · simp only [List.length_drop, List.length_cons]; omega
          · simp
          · simp
  intro s hs
  exact key f s.length s hs (Nat.le_refl _)

theorem decodeAll_cons (x : UInt8) (s : Bytes) :
    decodeAll (x :: s) = (decodeRune (x :: s)).1 :: decodeAll ((x :: s).drop (decodeRune (x :: s)).2) := by
  have hp := decodeRune_pos x s
  rw [decodeAll, List.length_cons, decodeAux]
  · rw [decodeAux_fuel]
    simp only [List.length_drop, List.length_cons]; omega
  · simp

theorem decodeRune_ascii (x : UInt8) (s : Bytes) (h : x.toNat < 128) : decodeRune (x :: s) = (Char.ofNat x.toNat, 1) := by
  have : bn x < 0x80 := h
  simp only [decodeRune, if_pos this]; rfl

theorem isCont_ascii (x : UInt8) (h : x.toNat < 128) : isCont x = false := by
  have : bn x < 128 := h
  simp only [isCont, Bool.and_eq_false_iff, decide_eq_false_iff_not]; omega

/-- An ASCII byte ends whatever precedes it. -/
theorem decodeRune_append (a : UInt8) (s : Bytes) (x : UInt8) (t : Bytes) (h : x.toNat < 128) :
    decodeRune (a :: (s ++ x :: t)) = decodeRune (a :: s) := by
  have hc := isCont_ascii x h
  have hb : bn x < 128 := h
  rcases s with _ | ⟨b1, _ | ⟨b2, _ | ⟨b3, s⟩⟩⟩
  · simp only [List.nil_append, decodeRune, hc]
    split
    · rfl
    · split
      · simp
      · split
        · cases t with
          | nil => rfl
          | cons y t =>
            simp only
            rw [if_neg]
            intro hh; have := hh.1; split at this <;> omega
        · split
          · rcases t with _ | ⟨y, _ | ⟨z, t⟩⟩
            · rfl
            · rfl
            · simp only
              rw [if_neg]
              intro hh; have := hh.1; split at this <;> omega
          · rfl
  · simp only [List.cons_append, List.nil_append, decodeRune, hc]
    split
    · rfl
    · split
      · rfl
      · split
        · simp
        · split
          · cases t with
            | nil => rfl
            | cons y t => simp [hc]
          · rfl
  · simp only [List.cons_append, List.nil_append, decodeRune, hc]
    split
    · rfl
    · split
      · rfl
      · split
        · rfl
        · split
          · simp
          · rfl
  · simp only [List.cons_append, decodeRune]

theorem decodeAll_append (s : Bytes) (x : UInt8) (t : Bytes) (h : x.toNat < 128) :
    decodeAll (s ++ x :: t) = decodeAll s ++ Char.ofNat x.toNat :: decodeAll t := by
  generalize hn : s.length = n
  induction n using Nat.strongRecOn generalizing s with
  | ind n ih =>
    cases s with
    | nil =>
      rw [List.nil_append, decodeAll_cons, decodeRune_ascii x t h]; rfl
    | cons a s =>
      have hp := decodeRune_pos a s
      have hle := decodeRune_le a s
      simp only [List.length_cons] at hn
      rw [List.cons_append, decodeAll_cons, decodeRune_append a s x t h, decodeAll_cons a s, List.cons_append]
      congr 1
      rw [← List.cons_append, List.drop_append_of_le_length (by simp only [List.length_cons]; omega)]
      exact ih _ (by simp only [List.length_drop, List.length_cons]; omega) _ rfl

/-! ### trimming undecoded text -/

theorem chunksAux_fuel (f : Nat) : ∀ s : Bytes, s.length ≤ f → chunksAux f s = chunks s := by
  have key : ∀ f g (s : Bytes), s.length ≤ f → s.length ≤ g → chunksAux f s = chunksAux g s := by
    intro f
    induction f with
    | zero =>
      intro g s hs _
      have : s = [] := List.length_eq_zero_iff.1 (by omega)
      subst this
      cases g <;> rfl
    | succ f ih =>
      intro g s hs hg
      cases s with
      | nil => cases g <;> rfl
      | cons x s =>
        cases g with
        | zero => simp at hg
        | succ g =>
          have hp := decodeRune_pos x s
          simp only [List.length_cons] at hs hg
          rw [chunksAux, chunksAux]
          rw [ih g]
          · simp only [List.length_drop, List.length_cons]; omega
          · simp only [List.length_drop, List.length_cons]; omega
          · simp
          · simp
  intro s hs
  exact key f s.length s hs (Nat.le_refl _)

theorem chunks_cons (x : UInt8) (s : Bytes) :
    chunks (x :: s) = ((decodeRune (x :: s)).1, (x :: s).take (decodeRune (x :: s)).2) ::
      chunks ((x :: s).drop (decodeRune (x :: s)).2) := by
  have hp := decodeRune_pos x s
  rw [chunks, List.length_cons, chunksAux]
  · rw [chunksAux_fuel]
    simp only [List.length_drop, List.length_cons]; omega
  · simp

/-- Trimming leaves a suffix whose runes are the untrimmed runes without leading white space. -/
theorem trimLeft_spec (s : Bytes) : decodeAll (trimLeft s) = (decodeAll s).dropWhile isSpace := by
  have flat : ∀ n (s : Bytes), s.length = n → (chunks s).flatMap (·.2) = s := by
    intro n
    induction n using Nat.strongRecOn with
    | ind n ih =>
      intro s hn
      cases s with
      | nil => rfl
      | cons x s =>
        have hp := decodeRune_pos x s
        simp only [List.length_cons] at hn
        rw [chunks_cons, List.flatMap_cons, ih _ (by simp only [List.length_drop, List.length_cons]; omega) _ rfl]
        exact List.take_append_drop _ _
  generalize hn : s.length = n
  induction n using Nat.strongRecOn generalizing s with
  | ind n ih =>
    cases s with
    | nil => rfl
    | cons x s =>
      have hp := decodeRune_pos x s
      simp only [List.length_cons] at hn
      have ih' := ih _ (by simp only [List.length_drop, List.length_cons]; omega) ((x :: s).drop (decodeRune (x :: s)).2) rfl
      unfold trimLeft at ih' ⊢
      rw [chunks_cons, decodeAll_cons, List.dropWhile_cons, List.dropWhile_cons]
      split
      · exact ih'
      · rename_i hsp
        rw [← chunks_cons, flat _ _ rfl, decodeAll_cons]

/-! ### splitting -/

/-- The commands a lexer state stands for. -/
def Lex.commands (x : Lex) : Res Bytes (List Value) := parseCommands (x.flushNonempty.parts.map encodeAll)

theorem Res.cat_ok_nil {ε α : Type} (x : Res ε (List α)) : x.cat (.ok []) = x := by
  cases x <;> simp [Res.cat, Res.bind]

theorem Res.ok_nil_cat {ε α : Type} (x : Res ε (List α)) : Res.cat (.ok []) x = x := by
  cases x <;> simp [Res.cat, Res.bind]

theorem Res.cat_assoc {ε α : Type} (x y z : Res ε (List α)) : (x.cat y).cat z = x.cat (y.cat z) := by
  cases x <;> cases y <;> cases z <;> simp [Res.cat, Res.bind]

/-- One command, trimmed; blank commands are skipped. -/
def parseCommand (c : Bytes) : Res Bytes (List Value) :=
  if trimSpace c = [] then .ok [] else (parseLine (trimSpace c)).bind fun v => .ok [v]

theorem parseCommands_cons (c : Bytes) (cs : List Bytes) : parseCommands (c :: cs) = (parseCommand c).cat (parseCommands cs) := by
  rw [parseCommands, parseCommand]
  split
  · rw [Res.ok_nil_cat]
  · cases parseLine (trimSpace c) <;> cases parseCommands cs <;> rfl

theorem parseCommands_append (a b : List Bytes) : parseCommands (a ++ b) = (parseCommands a).cat (parseCommands b) := by
  induction a with
  | nil => rw [List.nil_append, parseCommands, Res.ok_nil_cat]
  | cons c cs ih => rw [List.cons_append, parseCommands_cons, ih, parseCommands_cons, Res.cat_assoc]

theorem parseCommand_nil : parseCommand [] = .ok [] := rfl

theorem commands_eq (x : Lex) : x.commands = parseCommands ((x.parts ++ [x.current]).map encodeAll) := by
  unfold Lex.commands Lex.flushNonempty
  split
  · rename_i h
    rw [h, List.map_append, parseCommands_append, List.map_singleton, parseCommands_cons]
    rw [encodeAll_nil, parseCommand_nil]
    simp [parseCommands, Res.cat_ok_nil]
  · rfl

theorem splitStep_parts (ps : List (List Char)) (x : Lex) (c : Char) :
    splitStep { x with parts := ps ++ x.parts } c = { splitStep x c with parts := ps ++ (splitStep x c).parts } := by
  cases x with | mk p cur q e =>
  unfold splitStep
  simp only
  cases e
  · simp only [Bool.false_eq_true, if_false]
    repeat' split
    all_goals simp [Lex.write, Lex.flush]
  · simp only [if_true]; simp [Lex.write]

theorem foldl_splitStep_parts (ps : List (List Char)) (cs : List Char) : ∀ x : Lex,
    cs.foldl splitStep { x with parts := ps ++ x.parts } =
      { cs.foldl splitStep x with parts := ps ++ (cs.foldl splitStep x).parts } := by
  induction cs with
  | nil => intro x; rfl
  | cons c cs ih => intro x; rw [List.foldl_cons, List.foldl_cons, splitStep_parts, ih]

/-- The commands of a decoded line. -/
def lineCommands (cs : List Char) : Res Bytes (List Value) := (cs.foldl splitStep {}).commands

/-- A semicolon outside quotes separates commands. -/
theorem lineCommands_semicolon (a b : List Char) (h : Closed a) :
    lineCommands (a ++ ';' :: b) = (lineCommands a).cat (lineCommands b) := by
  have hq := foldl_q splitStep splitStep_q a {}
  rw [show (({} : Lex)).q = (false, false) from rfl, closed_q h] at hq
  unfold lineCommands
  rw [List.foldl_append, List.foldl_cons]
  generalize a.foldl splitStep {} = x at *
  cases x with | mk p cur q e =>
  simp only [Lex.q, Prod.mk.injEq] at hq
  obtain ⟨rfl, rfl⟩ := hq
  have : splitStep { parts := p, current := cur } ';' = { ({} : Lex) with parts := (p ++ [cur]) ++ ({} : Lex).parts } := by
    simp [splitStep, Lex.flush]
  rw [this, foldl_splitStep_parts, commands_eq, commands_eq]
  simp only
  rw [List.append_assoc, List.map_append, parseCommands_append, commands_eq]

/-- Put white space in front of the first part. -/
def Lex.prepend (w : List Char) (x : Lex) : Lex :=
  match x.parts with
  | [] => { x with current := w ++ x.current }
  | p :: ps => { x with parts := (w ++ p) :: ps }

theorem splitStep_prepend (w : List Char) (x : Lex) (c : Char) : splitStep (x.prepend w) c = (splitStep x c).prepend w := by
  cases x with | mk p cur q e =>
  cases p with
  | nil =>
    simp only [Lex.prepend, splitStep]
    cases e
    · simp only [Bool.false_eq_true, if_false]
      repeat' split
      all_goals simp_all [Lex.write, Lex.flush]
    · simp [Lex.write]
  | cons p ps =>
    simp only [Lex.prepend, splitStep]
    cases e
    · simp only [Bool.false_eq_true, if_false]
      repeat' split
      all_goals simp_all [Lex.write, Lex.flush]
    · simp [Lex.write]

theorem foldl_prepend (w cs : List Char) : ∀ x : Lex, cs.foldl splitStep (x.prepend w) = (cs.foldl splitStep x).prepend w := by
  induction cs with
  | nil => intro x; rfl
  | cons c cs ih => intro x; rw [List.foldl_cons, List.foldl_cons, splitStep_prepend, ih]

theorem dropWhile_all {w : List Char} (hw : ∀ c ∈ w, isSpace c = true) (l : List Char) : (w ++ l).dropWhile isSpace = l.dropWhile isSpace := by
  induction w with
  | nil => rfl
  | cons c w ih =>
    rw [List.cons_append, List.dropWhile_cons, if_pos (hw c (by simp)), ih fun d hd => hw d (by simp [hd])]

theorem parseCommand_prepend (w p : List Char) (hw : ∀ c ∈ w, isSpace c = true) :
    parseCommand (encodeAll (w ++ p)) = parseCommand (encodeAll p) := by
  unfold parseCommand
  rw [trimSpace_encodeAll, trimSpace_encodeAll, trimChars, dropWhile_all hw]
  rfl

theorem commands_prepend (w : List Char) (x : Lex) (hw : ∀ c ∈ w, isSpace c = true) : (x.prepend w).commands = x.commands := by
  rw [commands_eq, commands_eq]
  unfold Lex.prepend
  split
  · rename_i h
    simp only [h, List.nil_append, List.map_singleton, parseCommands_cons, parseCommand_prepend w _ hw]
  · rename_i p ps h
    simp only [h, List.cons_append, List.map_cons, parseCommands_cons, parseCommand_prepend w _ hw]

theorem takeWhile_space (cs : List Char) : ∀ c ∈ cs.takeWhile isSpace, isSpace c = true := by
  induction cs with
  | nil => simp
  | cons d cs ih =>
    intro c hc
    rw [List.takeWhile_cons] at hc
    split at hc
    · rcases List.mem_cons.1 hc with rfl | hc
      · assumption
      · exact ih c hc
    · cases hc

theorem splitStep_space (w : List Char) (hw : ∀ c ∈ w, isSpace c = true) : ∀ cur,
    w.foldl splitStep { current := cur } = { current := cur ++ w } := by
  induction w with
  | nil => intro cur; simp
  | cons c w ih =>
    intro cur
    have hc := hw c (by simp)
    have h1 : c ≠ '"' := by rintro rfl; revert hc; decide
    have h2 : c ≠ ';' := by rintro rfl; revert hc; decide
    rw [List.foldl_cons, splitStep_plain [] cur c h1 h2, ih (fun d hd => hw d (by simp [hd]))]
    simp

/-- Leading white space of a line does not matter. -/
theorem lineCommands_trim (cs : List Char) : lineCommands (cs.dropWhile isSpace) = lineCommands cs := by
  have h : lineCommands cs = lineCommands (cs.takeWhile isSpace ++ cs.dropWhile isSpace) := by
    rw [List.takeWhile_append_dropWhile]
  rw [h]
  unfold lineCommands
  rw [List.foldl_append]
  have := splitStep_space (cs.takeWhile isSpace) (takeWhile_space cs) []
  rw [show ({} : Lex) = { current := [] } from rfl, this]
  have hp : ({ current := [] ++ cs.takeWhile isSpace } : Lex) = ({ current := [] } : Lex).prepend (cs.takeWhile isSpace) := by
    simp [Lex.prepend]
  rw [hp, foldl_prepend, commands_prepend _ _ (takeWhile_space cs)]

/-- The commands of a raw line. -/
theorem parseRawLine_eq (line : Bytes) : parseRawLine line = lineCommands (decodeAll line) := by
  rw [parseRawLine, splitOnSemicolons, trimLeft_spec, ← lineCommands_trim]
  rfl

theorem trimChars_snoc (cs : List Char) (c : Char) (h : isSpace c = true) : trimChars (cs ++ [c]) = trimChars cs := by
  unfold trimChars
  have : (cs ++ [c]).dropWhile isSpace = if cs.dropWhile isSpace = [] then [] else cs.dropWhile isSpace ++ [c] := by
    induction cs with
    | nil => simp [h]
    | cons d cs ih =>
      rw [List.cons_append, List.dropWhile_cons, List.dropWhile_cons]
      split
      · exact ih
      · simp
  rw [this]
  split
  · rename_i h'; rw [h']
  · rw [List.reverse_append, List.reverse_singleton, List.singleton_append, List.dropWhile_cons, if_pos h]

theorem dropCR_eq (s : Bytes) : dropCR s = s ∨ ∃ t, s = t ++ [13] ∧ dropCR s = t := by
  unfold dropCR
  split
  · rename_i h
    right
    obtain ⟨t, rfl⟩ := List.getLast?_eq_some_iff.1 h
    exact ⟨t, rfl, by simp⟩
  · exact Or.inl rfl

/-- A carriage return at the end of a closed line does not matter. -/
theorem parseRawLine_dropCR (s : Bytes) (h : Closed (decodeAll s)) : parseRawLine (dropCR s) = parseRawLine s := by
  rcases dropCR_eq s with h' | ⟨t, rfl, h'⟩
  · rw [h']
  · rw [h', parseRawLine_eq, parseRawLine_eq]
    have hd : decodeAll (t ++ [13]) = decodeAll t ++ ['\r'] := decodeAll_append t 13 [] (by decide)
    rw [hd] at h ⊢
    have hclosed : Closed (decodeAll t) := by
      rw [← closed_iff] at h ⊢
      rw [List.foldl_append, List.foldl_cons, List.foldl_nil] at h
      generalize (decodeAll t).foldl qstep (false, false) = st at *
      have : (qstep st '\r').1 = st.1 := by unfold qstep; repeat' split <;> simp_all
      rwa [this] at h
    have hq := foldl_q splitStep splitStep_q (decodeAll t) {}
    rw [show (({} : Lex)).q = (false, false) from rfl, closed_q hclosed] at hq
    unfold lineCommands
    rw [List.foldl_append, List.foldl_cons, List.foldl_nil]
    generalize (decodeAll t).foldl splitStep {} = x at *
    cases x with | mk p cur q e =>
    simp only [Lex.q, Prod.mk.injEq] at hq
    obtain ⟨rfl, rfl⟩ := hq
    rw [splitStep_plain p cur '\r' (by decide) (by decide), commands_eq, commands_eq]
    simp only [List.map_append, List.map_singleton, parseCommands_append, parseCommands_cons]
    have : parseCommand (encodeAll (cur ++ ['\r'])) = parseCommand (encodeAll cur) := by
      unfold parseCommand
      rw [trimSpace_encodeAll, trimSpace_encodeAll, trimChars_snoc _ _ (by decide)]
    rw [this]

end Texted
