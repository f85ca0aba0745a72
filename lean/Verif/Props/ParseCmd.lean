import Verif.Lemmas.Spelled
import Verif.Lemmas.JsonTextual
import Verif.Lemmas.ReExt
import Verif.Model.ParseCmd
import Verif.Spec.ShellText
/- C67: the command `texted parse`. -/
namespace Texted
open Spec
variable [Ext]

/-! ### Formats and errors -/

/-- An unknown format is an error that names it (the input format first), and nothing is written. -/
theorem C67_invalid_format (i o stdin : Bytes) :
    (¬ (i = b! "shell" ∨ i = b! "sexp" ∨ i = b! "json") → runParse i o stdin =
      some ⟨[], some (b! "invalid input format: " ++ i ++ b! " (must be shell, sexp, or json)")⟩) ∧
    ((i = b! "shell" ∨ i = b! "sexp" ∨ i = b! "json") → ¬ (o = b! "shell" ∨ o = b! "sexp" ∨ o = b! "json") → runParse i o stdin =
      some ⟨[], some (b! "invalid output format: " ++ o ++ b! " (must be shell, sexp, or json)")⟩) := by
  have hv : ∀ f, isValidFormat f = true ↔ (f = b! "shell" ∨ f = b! "sexp" ∨ f = b! "json") := by
    intro f; simp [isValidFormat, or_assoc]
  have hn : ∀ f, ¬ (f = b! "shell" ∨ f = b! "sexp" ∨ f = b! "json") → (!isValidFormat f) = true := by
    intro f h; rw [Bool.not_eq_true', ← Bool.not_eq_true]; exact fun hh => h ((hv f).1 hh)
  constructor
  · intro h; rw [runParse, if_pos (hn i h)]
  · intro h1 h2
    rw [runParse, if_neg (by simp [(hv i).2 h1]), if_pos (hn o h2)]

/-- With known formats: the command never crashes; if the input is not a program it reports that and writes nothing;
otherwise the outcome is what the writer makes of the program. `shell` and `sexp` input are the same language. -/
theorem C67_outcome (i o stdin : Bytes) (hi : i = b! "shell" ∨ i = b! "sexp" ∨ i = b! "json")
    (ho : o = b! "shell" ∨ o = b! "sexp" ∨ o = b! "json") :
    (∃ p, (if i = b! "json" then Res.ofExcept (parseJsonReader stdin) else parseString stdin) = .ok p ∧
      runParse i o stdin = some (if o = b! "shell" then writeShell p else if o = b! "sexp" then writeSexp p else writeJson p)) ∨
    (∃ e, (if i = b! "json" then Res.ofExcept (parseJsonReader stdin) else parseString stdin) = .err e ∧
      runParse i o stdin = some ⟨[], some (b! "parsing input: " ++ e)⟩) := by
  have hin : parseInput stdin i = if i = b! "json" then Res.ofExcept (parseJsonReader stdin) else parseString stdin := by
    rcases hi with rfl | rfl | rfl <;> rfl
  have hvi : isValidFormat i = true := by rcases hi with rfl | rfl | rfl <;> rfl
  have hvo : isValidFormat o = true := by rcases ho with rfl | rfl | rfl <;> rfl
  have hw : ∀ p, writeOutput p o = if o = b! "shell" then writeShell p else if o = b! "sexp" then writeSexp p else writeJson p := by
    intro p; rcases ho with rfl | rfl | rfl <;> rfl
  rw [← hin, runParse, if_neg (by simp [hvi]), if_neg (by simp [hvo])]
  cases hp : parseInput stdin i with
  | ok p => exact .inl ⟨p, rfl, by simp only [hw]⟩
  | err e => exact .inr ⟨e, rfl, rfl⟩
  | panic =>
    exfalso
    rw [hin] at hp
    split at hp
    · cases hj : parseJsonReader stdin <;> rw [hj] at hp <;> cases hp
    · rcases C42_total stdin with ⟨p, h⟩ | ⟨e, h⟩ <;> rw [h] at hp <;> cases hp

/-! ### S-expressions -/

omit [Ext] in
theorem trimmed_tight {cs : List Char} (h : Tight cs) : trimmed cs = cs := trimChars_tight cs h

theorem list_line (l : List Value) (h : Spelled (.list l)) :
    ∃ cs, Value.toStr (.list l) = encodeAll cs ∧ '\n' ∉ cs ∧ LineReads cs [.list l] ∧ (Value.toStr (.list l)).getLast? = some 41 := by
  obtain ⟨cs, h1, h2⟩ := spelled_spells (.list l) h
  obtain ⟨tv, h3, h4⟩ := h2.toks
  obtain ⟨ds, h5, -⟩ := spelled_all l h
  have he : cs = '(' :: (ds ++ [')']) := by
    apply encodeAll_inj
    rw [← h1, Value.toStr, h5, encodeAll_cons, encodeAll_append]
    rfl
  refine ⟨cs, h1, h2.nonl, .last _ _ ⟨h2.one, .inr ?_⟩, ?_⟩
  · have ht : trimmed cs = cs := by
      apply trimmed_tight
      rw [he]
      refine ⟨?_, ?_⟩
      · intro c hc; simp at hc; subst hc; decide
      · intro c hc
        rw [show '(' :: (ds ++ [')']) = ('(' :: ds) ++ [')'] by simp, List.getLast?_concat] at hc
        cases hc; decide
    rw [ht]
    refine ⟨h2.ne, .list l, ?_, rfl⟩
    rw [commandReads_iff, if_pos (by rw [he]; rfl)]
    have := h4 [] [] (by simp) .nil
    exact ⟨tv, [], by simpa using this, h3⟩
  · rw [Value.toStr, List.getLast?_concat]

/-- The S-expression output of the parser is stable: whatever script is accepted — with any symbols, even those with
quotes, odd white space or replaced invalid bytes in them — its S-expression form is a script for the same program. -/
theorem C67_sexp_same_program (s : Bytes) (p : List Value) (h : parseString s = .ok p)
    (hlen : ∀ v ∈ p, v.toStr.length < 65536) : (writeSexp p).err = none ∧ parseString (writeSexp p).out = .ok p := by
  refine ⟨rfl, ?_⟩
  have hs := parseString_spelled h
  have hl := C42_instructions_are_lists s p h
  rw [C42_parser_is_grammar]
  clear h
  unfold ScriptReads
  induction p with
  | nil => exact .cons [] [] [] [] (by decide) (.last _ _ ⟨.nil, .inl ⟨rfl, rfl⟩⟩) .nil
  | cons v p ih =>
    have h1 := hl v (by simp)
    cases v with
    | list l =>
      obtain ⟨cs, g1, g2, g3, g4⟩ := list_line l hs.1
      have hnl : ∀ x ∈ Value.toStr (.list l), x ≠ nl := by
        rw [g1]
        rintro x hx rfl
        obtain ⟨c, hc, hcx⟩ := mem_encodeAll hx (by decide)
        rw [char_eq_of_toNat (hcx.trans (show nl.toNat = ('\n' : Char).toNat from rfl))] at hc
        exact g2 hc
      have e : (writeSexp (.list l :: p)).out = Value.toStr (.list l) ++ nl :: (writeSexp p).out := by simp [writeSexp]
      rw [e, splitByte_line nl _ _ hnl]
      refine .cons _ _ [_] _ (hlen _ (by simp)) ?_ (ih (fun v hv => hlen v (by simp [hv])) hs.2 fun v hv => hl v (by simp [hv]))
      have hd : dropCR (Value.toStr (.list l)) = Value.toStr (.list l) := by
        unfold dropCR; rw [g4]; rfl
      rw [hd, g1, decodeAll_encodeAll]
      exact g3
    | _ => exact absurd h1 id

omit [Ext] in
theorem splitByte_mem_right (sep : UInt8) (a b : Bytes) (x : Bytes) (h : x ∈ splitByte sep b) : x ∈ splitByte sep (a ++ sep :: b) := by
  induction a with
  | nil => simp [splitByte, h]
  | cons c a ih =>
    rw [List.cons_append, splitByte]
    split
    · exact List.mem_cons_of_mem _ ih
    · have : ∃ l ls, splitByte sep (a ++ sep :: b) = l :: ls ∧ x ∈ ls := by
        clear ih
        induction a with
        | nil => exact ⟨[], splitByte sep b, by simp [splitByte], h⟩
        | cons d a ih =>
          obtain ⟨l, ls, h1, h2⟩ := ih
          rw [List.cons_append, splitByte, h1]
          split
          · exact ⟨[], _, rfl, List.mem_cons_of_mem _ h2⟩
          · exact ⟨_, ls, rfl, h2⟩
      obtain ⟨l, ls, h1, h2⟩ := this
      rw [h1]
      exact List.mem_cons_of_mem _ h2

/-- So `parse` applied to its own S-expression output prints it again, byte for byte. -/
theorem C67_sexp_idempotent (i s out : Bytes) (hi : i = b! "shell" ∨ i = b! "sexp")
    (h : runParse i (b! "sexp") s = some ⟨out, none⟩) (hlen : ∀ l ∈ splitByte nl out, l.length < 65536) :
    (∀ j, j = b! "shell" ∨ j = b! "sexp" → runParse j (b! "sexp") out = some ⟨out, none⟩) ∧ parseString out = parseString s := by
  have hj : ∀ j s, j = b! "shell" ∨ j = b! "sexp" → runParse j (b! "sexp") s = match parseString s with
      | .err e => some { out := [], err := some (b! "parsing input: " ++ e) }
      | .panic => none
      | .ok p => some (writeSexp p) := by
    rintro j s (rfl | rfl) <;> rfl
  rw [hj i s hi] at h
  cases hp : parseString s with
  | err e => rw [hp] at h; simp at h
  | panic => rw [hp] at h; simp at h
  | ok p =>
    rw [hp] at h
    simp only [Option.some.injEq] at h
    have hout : (writeSexp p).out = out := by rw [h]
    have key : parseString out = .ok p := by
      rw [← hout]
      refine (C67_sexp_same_program s p hp ?_).2
      intro v hv
      have hs := (spelledAll_iff p).1 (parseString_spelled hp) v hv
      obtain ⟨cs, g1, g2⟩ := spelled_spells v hs
      apply hlen
      rw [← hout]
      have hnl : ∀ x ∈ v.toStr, x ≠ nl := by
        rw [g1]
        rintro x hx rfl
        obtain ⟨c, hc, hcx⟩ := mem_encodeAll hx (by decide)
        rw [char_eq_of_toNat (hcx.trans (show nl.toNat = ('\n' : Char).toNat from rfl))] at hc
        exact g2.nonl hc
      clear h hout hp hlen
      simp only [writeSexp]
      induction p with
      | nil => simp at hv
      | cons w p ih =>
        rw [List.flatMap_cons, List.append_assoc, List.singleton_append]
        rcases List.mem_cons.1 hv with rfl | hv
        · rw [splitByte_line nl _ _ hnl]; simp
        · exact splitByte_mem_right _ _ _ _ (ih hv)
    refine ⟨fun j hj' => ?_, key⟩
    rw [hj j out hj', key]
    simp only [h]

/-- And the converted script does to every text what the original does. -/
theorem C67_sexp_same_effect (i s out : Bytes) (hi : i = b! "shell" ∨ i = b! "sexp")
    (h : runParse i (b! "sexp") s = some ⟨out, none⟩) (hlen : ∀ l ∈ splitByte nl out, l.length < 65536) (text : Bytes) :
    executeScript text out = executeScript text s := by
  rw [executeScript, executeScript, (C67_sexp_idempotent i s out hi h hlen).2]

omit [Ext] in
/-- Non-vacuity: a script with an odd symbol, an ignored comment-like tail, semicolons, an escape and nesting is accepted and
rewritten to short lines. -/
example : letI := litExt
    ∃ out, runParse (b! "shell") (b! "sexp") (b! "foo\"a b\" 1.50; insert \"x;\\n\"\n(a (b ()) c) d\n") = some ⟨out, none⟩ ∧
      out = b! "(foo\"a b\" 1.5)\n(insert \"x;\\n\")\n(a (b ()) c)\n" ∧ ∀ l ∈ splitByte nl out, l.length < 65536 :=
  ⟨_, rfl, by decide +kernel, by decide +kernel⟩

omit [Ext] in
theorem parseFloat_xs (r : Bytes) : parseFloat (120 :: r) = none := by
  have h1 : parseSpecial (120 :: r) = none := by
    simp only [parseSpecial, List.map_cons]
    simp [lowerByte]
  have h2 : readFloat (120 :: r) = none := rfl
  unfold parseFloat
  rw [h1, h2]

theorem long_line (n : Nat) (hn : n = 65534) : ∃ s p, parseString s = .ok p ∧ ∃ e, parseString (writeSexp p).out = .err e := by
  have hx : 120 :: List.replicate n 120 = encodeAll ('x' :: List.replicate n 'x') := by
    clear hn
    induction n with
    | zero => rfl
    | succ n ih => rw [List.replicate_succ, List.replicate_succ, encodeAll_cons, ← ih]; rfl
  have hc : ∀ c ∈ 'x' :: List.replicate n 'x', nameChar c := by
    intro c hc
    rw [show c = 'x' from (List.mem_cons.1 hc).elim id fun h => List.eq_of_mem_replicate h]
    unfold nameChar; decide
  have hw : Writable (.sym (120 :: List.replicate n 120)) := ⟨_, hx, by simp, hc, parseFloat_xs _⟩
  have hlen : (120 :: List.replicate n (120 : UInt8)).length = 65535 := by rw [List.length_cons, List.length_replicate, hn]
  have hnl : ∀ x ∈ 120 :: List.replicate n (120 : UInt8), x ≠ nl := by
    intro x hx
    rw [show x = 120 from (List.mem_cons.1 hx).elim id fun h => List.eq_of_mem_replicate h]
    decide
  refine ⟨120 :: List.replicate n 120, [.list [.sym (120 :: List.replicate n 120)]], ?_, ?_⟩
  · have ht := TextOf.name hx (by simp) hc
    rw [parseString_single ht (by omega)]
    have hp : parseLine (120 :: List.replicate n 120) = .ok (.list [.sym (120 :: List.replicate n 120)]) := by
      have h1 := parseToken_atom (.sym (120 :: List.replicate n 120)) hw trivial
      simp only [Value.toStr] at h1
      unfold parseLine
      rw [if_neg (by simp [hasPrefix]), parseShellLike, ht.tokenize]
      generalize 120 :: List.replicate n (120 : UInt8) = t at *
      simp [shellLoop, h1]
    rw [hp]
    rfl
  · generalize 120 :: List.replicate n (120 : UInt8) = t at *
    apply C53_long_line_rejected _ (Value.toStr (.list [.sym t]))
    · have hs : (writeSexp [.list [.sym t]]).out = Value.toStr (.list [.sym t]) ++ nl :: [] := by simp [writeSexp]
      rw [hs, splitByte_line]
      · simp
      · intro x hx
        simp only [Value.toStr, Value.toStrs, List.mem_append, List.mem_cons, List.not_mem_nil, or_false] at hx
        rcases hx with (rfl | hx) | rfl
        · decide
        · exact hnl x hx
        · decide
    · simp [Value.toStr, Value.toStrs, hlen]

/-- FINDING: why the lines of the output must be short: a line of 65535 bytes is accepted, but its S-expression form has
two bytes more and is refused. -/
theorem C67_false_long_line : ∃ s p, parseString s = .ok p ∧ ∃ e, parseString (writeSexp p).out = .err e := long_line _ rfl

omit [Ext] in
/-- FINDING: converting a JSON script to an S-expression can change the program without notice: a command name with a
blank becomes a name and an argument, a bare number becomes a command. -/
theorem C67_false_json_to_sexp : letI := litExt
    runParse (b! "json") (b! "sexp") (b! "[\"insert x\"] 5") = some ⟨b! "(insert x)\n5\n", none⟩ ∧
    parseJsonReader (b! "[\"insert x\"] 5") = .ok [.list [.sym (b! "insert x")], .num (.fin false 5 0)] ∧
    parseString (b! "(insert x)\n5\n") = .ok [.list [.sym (b! "insert"), .sym (b! "x")], .list [.num (.fin false 5 0)]] := by
  decide +kernel

/-! ### JSON -/

omit [Ext] in
/-- Whatever JSON input `parse` accepts, its JSON output is never refused and reads back as the same program. -/
theorem C67_json_same_program (s : Bytes) (p : List Value) (h : parseJsonReader s = .ok p) :
    (writeJson p).err = none ∧ parseJsonReader (writeJson p).out = .ok p := by
  have hp := parseJsonStream_textual _ _ _ h
  refine ⟨?_, parseJsonStream_write p hp _ [] (Or.inl rfl) (by simp)⟩
  clear h
  induction p with
  | nil => rfl
  | cons v r ih =>
    obtain ⟨c, t, h1, h2, h3⟩ := writeJsonValue_some v (hp v (by simp)).2.1
    simp [writeJson, h3, ih fun v hv => hp v (by simp [hv])]

/-- So JSON to JSON always succeeds on accepted input, and a second pass prints the same bytes. -/
theorem C67_json_idempotent (s : Bytes) (p : List Value) (h : parseJsonReader s = .ok p) :
    ∃ out, runParse (b! "json") (b! "json") s = some ⟨out, none⟩ ∧ runParse (b! "json") (b! "json") out = some ⟨out, none⟩ := by
  obtain ⟨h1, h2⟩ := C67_json_same_program s p h
  have hj : ∀ s, runParse (b! "json") (b! "json") s = match Res.ofExcept (parseJsonReader s) with
      | .err e => some { out := [], err := some (b! "parsing input: " ++ e) }
      | .panic => none
      | .ok p => some (writeJson p) := fun _ => rfl
  have hw : writeJson p = ⟨(writeJson p).out, none⟩ := by rw [← h1]
  refine ⟨(writeJson p).out, ?_, ?_⟩
  · rw [hj, h]; exact congrArg some hw
  · rw [hj, h2]; exact congrArg some hw

mutual
/-- The value has no NaN and no infinity in it. -/
def Finite : Value → Prop
  | .num x => ∃ neg m e, x = .fin neg m e
  | .list l => FiniteAll l
  | _ => True
@[inherit_doc Finite]
def FiniteAll : List Value → Prop
  | [] => True
  | v :: l => Finite v ∧ FiniteAll l
end

omit [Ext] in
mutual
theorem jsonPrint_finite : (v : Value) → ((jsonPrint (valueToJson v)).isSome = true ↔ Finite v)
  | .sym _ => by simp [valueToJson, jsonPrint, Finite]
  | .str _ => by simp [valueToJson, jsonPrint, Finite]
  | .num x => by
    cases x with
    | nan => simp [valueToJson, jsonPrint, jsonFloat, Finite]
    | inf n => simp [valueToJson, jsonPrint, jsonFloat, Finite]
    | fin n m e =>
      refine ⟨fun _ => ⟨n, m, e, rfl⟩, fun _ => ?_⟩
      simp only [valueToJson, jsonPrint, jsonFloat]
      split <;> rfl
  | .list l => by
    have := jsonPrints_finite l
    rw [valueToJson, jsonPrint, Finite, ← this]
    cases jsonPrints (valuesToJson l) <;> simp
theorem jsonPrints_finite : (l : List Value) → ((jsonPrints (valuesToJson l)).isSome = true ↔ FiniteAll l)
  | [] => by simp [valuesToJson, jsonPrints, FiniteAll]
  | [v] => by
    have := jsonPrint_finite v
    simp [valuesToJson, jsonPrints, FiniteAll, this]
  | v :: w :: r => by
    have h1 := jsonPrint_finite v
    have h2 := jsonPrints_finite (w :: r)
    rw [FiniteAll, ← h1, ← h2]
    simp only [valuesToJson, jsonPrints]
    cases jsonPrint (valueToJson v) <;> cases jsonPrints (valueToJson w :: valuesToJson r) <;> simp
end

omit [Ext] in
/-- The JSON writer refuses a program exactly if a NaN or an infinity occurs in it. -/
theorem C67_json_writer_refuses (p : List Value) : (writeJson p).err = none ↔ FiniteAll p := by
  induction p with
  | nil => simp [writeJson, FiniteAll]
  | cons v p ih =>
    rw [FiniteAll, ← ih, ← jsonPrint_finite v, writeJson]
    cases h : jsonPrint (valueToJson v) <;> simp [writeJsonValue, h]

omit [Ext] in
/-- Non-vacuity: a JSON script with nesting, an object, numbers and escapes is accepted. -/
example : letI := litExt
    ∃ p, parseJsonReader (b! "[\"insert\", \"a\\u00e9\\n\"] [\"f\", 1e3, [\"g\", -0.5]]") = .ok p ∧ p.length = 2 ∧
      (writeJson p).out = b! "[\"insert\",\"aé\\n\"]\n[\"f\",1000,[\"g\",-0.5]]\n" :=
  ⟨_, rfl, by decide +kernel, by decide +kernel⟩

/-! ### Shell lines -/

omit [Ext] in
theorem tokens_nil {cs : List Char} {ts : List (List Char)} (h : Tokens cs ts) (hh : cs = []) : ts = [] := by
  cases h with
  | nil => rfl
  | blank c r ts hb _ => simp at hh
  | paren c r ts hp _ => simp at hh
  | word w r ts hw hne _ _ => simp at hh; exact absurd hh.1 hne

omit [Ext] in
theorem paren_first {cs : List Char} {ts : List (List Char)} (h : Tokens cs ts) (hh : cs.head? = some '(') : ∃ r, ts = ['('] :: r := by
  cases h with
  | nil => simp at hh
  | blank c r ts hb _ => simp at hh; subst hh; exact absurd hb (by decide)
  | paren c r ts hp _ => simp at hh; subst hh; exact ⟨ts, rfl⟩
  | word w r ts hw hne _ _ =>
    exfalso
    cases hw with
    | nil => exact hne rfl
    | char c w h1 h2 h3 _ => simp at hh; subst hh; exact h3 (by decide)
    | lit s w _ _ => simp at hh

/-- A script that consists of flat commands comes back from its shell form as the same program, provided no line of that
form starts or ends with (Unicode) white space and all are below 64 KiB. -/
theorem C67_shell_same_program (s : Bytes) (p : List Value) (h : parseString s = .ok p)
    (hf : ∀ v ∈ p, ∃ w l, v = .list (w :: l) ∧ ∀ x ∈ w :: l, isAtom x)
    (ht : ∀ v ∈ p, ∀ t, shellString v = .ok t → t.length < 65536 ∧ trimmed (decodeAll t) = decodeAll t) :
    (writeShell p).err = none ∧ parseString (writeShell p).out = .ok p := by
  have hs := parseString_spelled h
  rw [C42_parser_is_grammar]
  clear h
  unfold ScriptReads
  induction p with
  | nil => exact ⟨rfl, .cons [] [] [] [] (by decide) (.last _ _ ⟨.nil, .inl ⟨rfl, rfl⟩⟩) .nil⟩
  | cons v p ih =>
    obtain ⟨w, l, rfl, ha⟩ := hf v (by simp)
    obtain ⟨ih1, ih2⟩ := ih (fun v hv => hf v (by simp [hv])) (fun v hv => ht v (by simp [hv])) hs.2
    have hsh : shellString (.list (w :: l)) = .ok (Value.toStrs (w :: l)) := by
      rw [shellString, shellTokens_atoms _ ha]
      · simp only [toStrs_join]
      · simp
    obtain ⟨h1, h2⟩ := ht _ (by simp) _ hsh
    obtain ⟨cs, g1, g2, g3, tv, g4, g5⟩ := spelled_all (w :: l) hs.1
    have g6 := g5 [] [] (by simp) .nil
    rw [List.append_nil, List.append_nil] at g6
    rw [g1, decodeAll_encodeAll] at h2
    have hnl : ∀ x ∈ Value.toStrs (w :: l), x ≠ nl := by
      rw [g1]
      rintro x hx rfl
      obtain ⟨c, hc, hcx⟩ := mem_encodeAll hx (by decide)
      rw [char_eq_of_toNat (hcx.trans (show nl.toNat = ('\n' : Char).toNat from rfl))] at hc
      exact g3 hc
    have hne : cs ≠ [] := by
      intro hcs
      have := tokens_nil g6 hcs
      subst this
      rw [List.map_nil] at g4
      cases g4
    have hhead : cs.head? ≠ some '(' := by
      intro hh
      obtain ⟨r, hr⟩ := paren_first g6 hh
      rw [hr, List.map_cons] at g4
      generalize List.map encodeAll r = X at g4
      cases g4 with
      | atom _ _ _ _ hx => exact hx rfl
      | list inner l' ts vs => exact ha (.list l') (by simp)
    have hcr : dropCR (Value.toStrs (w :: l)) = Value.toStrs (w :: l) := by
      unfold dropCR
      rw [if_neg]
      intro hl
      rcases List.eq_nil_or_concat cs with rfl | ⟨a, c, rfl⟩
      · exact hne rfl
      · rw [List.concat_eq_append] at *
        have h13 : c = '\r' := by
          rw [g1, encodeAll_append, encodeAll_cons, encodeAll_nil, List.append_nil] at hl
          rw [getLast?_append_ne _ (encodeRune_ne_nil c)] at hl
          have hm := List.mem_of_getLast? hl
          have := mem_encodeRune hm (by decide)
          exact char_eq_of_toNat this
        subst h13
        have := congrArg List.length h2
        have hlt : (trimmed (a ++ ['\r'])).length < (a ++ ['\r']).length := by
          rw [show trimmed (a ++ ['\r']) = trimmed a from trimChars_snoc a '\r' (by decide)]
          have : (trimmed a).length ≤ a.length := by
            have h1 := (List.dropWhile_sublist isSpace (l := (a.dropWhile isSpace).reverse)).length_le
            have h2 := (List.dropWhile_sublist isSpace (l := a)).length_le
            simp only [trimmed, List.length_reverse] at *
            omega
          simp only [List.length_append, List.length_singleton]
          omega
        omega
    rw [writeShell, hsh]
    refine ⟨ih1, ?_⟩
    simp only
    rw [List.append_assoc, List.singleton_append, splitByte_line nl _ _ hnl]
    refine .cons _ _ [_] _ h1 ?_ ih2
    rw [hcr, g1, decodeAll_encodeAll]
    refine .last _ _ ⟨g2, .inr ?_⟩
    rw [h2]
    refine ⟨hne, _, ?_, rfl⟩
    rw [commandReads_iff, if_neg hhead]
    exact ⟨tv, _, g6, g4, rfl⟩

omit [Ext] in
/-- Non-vacuity: flat commands with strings, numbers and odd symbols meet the hypotheses. -/
example : letI := litExt
    ∃ p, parseString (b! "(insert \"a b\" 2) foo\"x y\" -3.5; point") = .ok p ∧
      (∀ v ∈ p, ∃ w l, v = .list (w :: l) ∧ ∀ x ∈ w :: l, isAtom x) ∧
      (∀ v ∈ p, ∀ t, shellString v = .ok t → t.length < 65536 ∧ trimmed (decodeAll t) = decodeAll t) := by
  refine ⟨[.list [.sym (b! "insert"), .str (b! "a b"), .num (.fin false 1 1)], .list [.sym (b! "point")]], by decide +kernel, ?_, ?_⟩
  · intro v hv
    simp only [List.mem_cons, List.not_mem_nil, or_false] at hv
    rcases hv with rfl | rfl
    · refine ⟨_, _, rfl, ?_⟩; intro x hx; simp only [List.mem_cons, List.not_mem_nil, or_false] at hx
      rcases hx with rfl | rfl | rfl <;> trivial
    · refine ⟨_, _, rfl, ?_⟩; intro x hx; simp only [List.mem_cons, List.not_mem_nil, or_false] at hx
      subst hx; trivial
  · intro v hv t ht
    simp only [List.mem_cons, List.not_mem_nil, or_false] at hv
    rcases hv with rfl | rfl
    · have : Except.ok t = Except.ok (ε := Bytes) (b! "insert \"a b\" 2") := ht.symm.trans (by decide +kernel)
      injection this with h; subst h; decide +kernel
    · have : Except.ok t = Except.ok (ε := Bytes) (b! "point") := ht.symm.trans (by decide +kernel)
      injection this with h; subst h; decide +kernel

omit [Ext] in
/-- FINDING: why the lines must be free of white space at the ends: a symbol may start with a no-break space (inside
parentheses it is not a blank), but at the start of a shell line it is dropped. -/
theorem C67_false_shell_space : letI := litExt
    runParse (b! "sexp") (b! "shell") (b! "( foo)") = some ⟨b! " foo\n", none⟩ ∧
    parseString (b! "( foo)") = .ok [.list [.sym (b! " foo")]] ∧
    parseString (b! " foo\n") = .ok [.list [.sym (b! "foo")]] := by
  decide +kernel

/-! ### Output that breaks off -/

/-- The lines the shell writer has written when it meets a command it cannot write. -/
theorem C67_shell_partial_output (p : List Value) (e : Bytes) (h : (writeShell p).err = some e) :
    ∃ before v after, p = before ++ v :: after ∧ (writeShell before).err = none ∧ shellString v = .error e ∧
      (writeShell p).out = (writeShell before).out := by
  induction p with
  | nil => simp [writeShell] at h
  | cons v p ih =>
    rw [writeShell] at h
    cases hs : shellString v with
    | error e' =>
      simp only [hs, Option.some.injEq] at h
      subst h
      exact ⟨[], v, p, rfl, rfl, hs, by rw [writeShell]; simp only [hs, writeShell]⟩
    | ok t =>
      simp only [hs] at h
      obtain ⟨before, w, after, h1, h2, h3, h4⟩ := ih h
      refine ⟨v :: before, w, after, by rw [h1]; rfl, ?_, h3, ?_⟩
      · rw [writeShell]; simp only [hs]; exact h2
      · rw [writeShell, writeShell]; simp only [hs]; rw [h4]

omit [Ext] in
/-- The same for the JSON writer. -/
theorem C67_json_partial_output (p : List Value) (e : Bytes) (h : (writeJson p).err = some e) :
    ∃ before v after, p = before ++ v :: after ∧ (writeJson before).err = none ∧ writeJsonValue v = none ∧
      e = jsonUnsupported ∧ (writeJson p).out = (writeJson before).out := by
  induction p with
  | nil => simp [writeJson] at h
  | cons v p ih =>
    rw [writeJson] at h
    cases hs : writeJsonValue v with
    | none =>
      simp only [hs, Option.some.injEq] at h
      exact ⟨[], v, p, rfl, rfl, hs, h.symm, by rw [writeJson]; simp only [hs, writeJson]⟩
    | some t =>
      simp only [hs] at h
      obtain ⟨before, w, after, h1, h2, h3, h5, h4⟩ := ih h
      refine ⟨v :: before, w, after, by rw [h1]; rfl, ?_, h3, h5, ?_⟩
      · rw [writeJson]; simp only [hs]; exact h2
      · rw [writeJson, writeJson]; simp only [hs]; rw [h4]

omit [Ext] in
/-- FINDING: `parse` fails, but the commands before the offending one are already on standard output. -/
theorem C67_output_before_error : letI := litExt
    runParse (b! "shell") (b! "shell") (b! "point\n(insert (point))\nmark") =
      some ⟨b! "point\n", some (b! "nested lists are not supported in shell format")⟩ := by
  decide +kernel

/-! ### What the shell writer writes -/

theorem shellToken_ok {v : Value} {s : Bytes} (h : ShellWord v s) : shellToken v = .ok s := by cases h <;> rfl

theorem shellWords_ok : ∀ {l : List Value} {s : Bytes}, ShellWords l s → shellString (.list l) = .ok s
  | _, _, .none => rfl
  | _, _, .one h => by simp [shellString, shellTokens, shellToken_ok h, joinWith]
  | _, _, @ShellWords.more _ v s w l t h hr => by
    have ih := shellWords_ok hr
    rw [shellString] at ih ⊢
    · cases ht : shellTokens (w :: l) with
      | error e => rw [ht] at ih; nomatch ih
      | ok ts =>
        rw [ht] at ih
        simp only [Except.ok.injEq] at ih
        rw [shellTokens, shellToken_ok h, ht]
        simp only [Except.ok.injEq]
        cases ts with
        | nil =>
          rw [shellTokens] at ht
          split at ht
          · nomatch ht
          · split at ht <;> nomatch ht
        | cons a as => rw [← ih, joinWith]
    all_goals simp

theorem shellLines_write {p : List Value} {s : Bytes} (h : ShellLines p s) : ∀ q, writeShell (p ++ q) = { writeShell q with out := s ++ (writeShell q).out } := by
  induction h with
  | nil => intro q; rfl
  | cons hw _ ih =>
    intro q
    rw [List.cons_append, writeShell, shellWords_ok hw]
    simp only [ih, List.append_assoc]
    rfl

theorem noShell_err {v : Value} {e : Bytes} (h : NoShellLine v e) : shellString v = .error e := by
  cases h with
  | sym => rfl
  | str => rfl
  | num => rfl
  | @nested l m hm =>
    have : ∀ l : List Value, Value.list m ∈ l → shellTokens l = .error (b! "nested lists are not supported in shell format") := by
      intro l
      induction l with
      | nil => intro h; nomatch h
      | cons v l ih =>
        intro h
        rw [shellTokens]
        cases v with
        | list _ => rfl
        | sym n => rw [ih (by simpa using h)]; rfl
        | str n => rw [ih (by simpa using h)]; rfl
        | num n => rw [ih (by simpa using h)]; rfl
    cases l with
    | nil => nomatch hm
    | cons a l => rw [shellString, this _ hm]; simp

theorem shell_line_or_not (v : Value) : (∃ l s, v = .list l ∧ ShellWords l s) ∨ ∃ e, NoShellLine v e := by
  cases v with
  | sym n => exact .inr ⟨_, .sym⟩
  | str n => exact .inr ⟨_, .str⟩
  | num n => exact .inr ⟨_, .num⟩
  | list l =>
    by_cases h : ∃ m, Value.list m ∈ l
    · obtain ⟨m, h⟩ := h; exact .inr ⟨_, .nested h⟩
    · left
      have hw : ∀ v ∈ l, ∃ s, ShellWord v s := by
        intro v hv
        cases v with
        | sym n => exact ⟨_, .sym⟩
        | str n => exact ⟨_, .str⟩
        | num n => exact ⟨_, .num⟩
        | list m => exact absurd ⟨m, hv⟩ h
      clear h
      suffices ∃ s, ShellWords l s from this.elim fun s hs => ⟨l, s, rfl, hs⟩
      induction l with
      | nil => exact ⟨_, .none⟩
      | cons v l ih =>
        obtain ⟨s, hs⟩ := hw v List.mem_cons_self
        cases l with
        | nil => exact ⟨_, .one hs⟩
        | cons w l =>
          obtain ⟨t, ht⟩ := ih (fun v hv => hw v (List.mem_cons_of_mem _ hv))
          exact ⟨_, .more hs ht⟩

/-- **C67.** What `-o shell` writes for every program, and the error if there is one. -/
theorem C67_shell_text (p : List Value) (s : Bytes) (e : Option Bytes) : writeShell p = ⟨s, e⟩ ↔ ShellText p s e := by
  have hback : ∀ {p s e}, ShellText p s e → writeShell p = ⟨s, e⟩ := by
    intro p s e h
    cases h with
    | all h => have := shellLines_write h []; simpa [writeShell] using this
    | upTo h hn => rw [shellLines_write h, writeShell, noShell_err hn]; simp
  refine ⟨fun h => ?_, hback⟩
  have : ∃ s e, ShellText p s e := by
    clear h
    induction p with
    | nil => exact ⟨_, _, .all .nil⟩
    | cons v p ih =>
      rcases shell_line_or_not v with ⟨l, t, rfl, hw⟩ | ⟨e, hn⟩
      · obtain ⟨s, e, h⟩ := ih
        cases h with
        | all h => exact ⟨_, _, .all (.cons hw h)⟩
        | upTo h hn => exact ⟨_, _, .upTo (.cons hw h) hn⟩
      · exact ⟨_, _, .upTo (p := []) .nil hn⟩
  obtain ⟨s', e', h'⟩ := this
  have := hback h'
  rw [h] at this
  cases this
  exact h'

omit [Ext] in
example : letI := litExt
    ShellText [.list [.sym b! "insert", .str b! "a"], .str b! "b", .list []] (b! "insert \"a\"\n") (some b! "can only convert lists to shell format, got *edlisp.String") :=
  (@C67_shell_text litExt _ _ _).1 (by decide +kernel)

end Texted
