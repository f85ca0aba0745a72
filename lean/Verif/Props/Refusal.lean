import Verif.Lemmas.Refusal
import Verif.Props.CommandLine
/- C71, C68: what is said of command lines that are refused. -/
namespace Texted
open Spec
variable [Ext]

/-- C71. A command line is either readable or refused with one message, never both. -/
theorem C71_readable_or_refused {defs : List FlagDef} (ht : GoodTable defs) (ws : List Bytes) :
    ((∃ l files, CommandLine defs ws l files) ∧ ∀ m, ¬ Misread defs ws m) ∨
    ((∀ l files, ¬ CommandLine defs ws l files) ∧ ∃ m, ∀ m', Misread defs ws m' ↔ m' = m) := by
  cases hp : parseWords defs ws with
  | ok p =>
    refine .inl ⟨⟨p.1, p.2, (parseWords_iff ht ws p.1 p.2).1 hp⟩, fun m hm => ?_⟩
    obtain ⟨e, h, _⟩ := (parseWords_error_iff ht ws m).2 hm
    rw [hp] at h; cases h
  | error e =>
    refine .inr ⟨fun l files h => ?_, e.text, fun m' => ?_⟩
    · rw [(parseWords_iff ht ws l files).2 h] at hp; cases hp
    · rw [← parseWords_error_iff ht, hp]
      constructor
      · rintro ⟨e', h, rfl⟩; injection h with h; rw [h]
      · rintro rfl; exact ⟨e, rfl, rfl⟩

/-- C71. `texted edit` refuses a command line with the message that tells the first thing wrong with it, and does nothing else. -/
theorem C71_refusal (help : Bytes) {ws : List Bytes} {m : Bytes} (h : Misread editFlags ws m) : editMain help ws = .ret (some m) := by
  obtain ⟨e, h1, rfl⟩ := (parseWords_error_iff editFlags_good ws m).2 h
  rw [editMain, h1]

/-- C71. And for every command line it refuses there is such a reason. -/
theorem C71_refusal_complete (help : Bytes) (ws : List Bytes) (h : ∀ l files, ¬ CommandLine editFlags ws l files) :
    ∃ m, Misread editFlags ws m ∧ editMain help ws = .ret (some m) := by
  rcases C71_readable_or_refused editFlags_good ws with ⟨⟨l, files, h'⟩, _⟩ | ⟨_, m, hm⟩
  · exact absurd h' (h l files)
  · exact ⟨m, (hm m).2 rfl, C71_refusal help ((hm m).2 rfl)⟩

/-- C71. The same of `texted parse`, -/
theorem C71_parse_refusal (help : Bytes) {ws : List Bytes} {m : Bytes} (h : Misread parseFlags ws m) (stdin : Bytes) :
    parseMain help ws stdin = some { out := [], err := some m } := by
  obtain ⟨e, h1, rfl⟩ := (parseWords_error_iff parseFlags_good ws m).2 h
  rw [parseMain, h1]

/-- C71. and of `texted doc`. -/
theorem C71_doc_refusal (help : Bytes) (title : Bytes → Bytes) (reg : Registry) {ws : List Bytes} {m : Bytes} (h : Misread docFlags ws m)
    (out : Except Bytes Bytes) : DocMain help title reg ws out ↔ out = .error m := by
  obtain ⟨e, h1, rfl⟩ := (parseWords_error_iff docFlags_good ws m).2 h
  rw [DocMain, h1]

/-- C71. An option that does not exist: the message names it, without its value. -/
theorem C71_unknown_option_text (help : Bytes) {pre : List Bytes} (hp : Whole editFlags pre) (name value : Bytes) (post : List Bytes)
    (hn : ∀ f ∈ editFlags, f.name ≠ name) (hne : name ≠ []) (h0 : name.head? ≠ some 45) (he : 61 ∉ name) :
    editMain help (pre ++ (b! "--" ++ name) :: post) = .ret (some (b! "unknown flag: --" ++ name)) ∧
    editMain help (pre ++ (b! "--" ++ name ++ b! "=" ++ value) :: post) = .ret (some (b! "unknown flag: --" ++ name)) :=
  ⟨C71_refusal help (.word hp (.unknown hne h0 he hn)), C71_refusal help (.word hp (.unknownAssigned hne h0 he hn))⟩

/-- C71. A value that is no truth value, for the options that are on or off. -/
theorem C71_bad_switch (help : Bytes) {pre : List Bytes} (hp : Whole editFlags pre) (value : Bytes) (post : List Bytes)
    (h1 : value ∉ trueWords) (h2 : value ∉ falseWords) :
    editMain help (pre ++ (b! "--in-place=" ++ value) :: post) = .ret (some (b! "invalid argument " ++ quote value ++
      b! " for \"-i, --in-place\" flag: strconv.ParseBool: parsing " ++ quote value ++ b! ": invalid syntax")) ∧
    editMain help (pre ++ (b! "--json=" ++ value) :: post) = .ret (some (b! "invalid argument " ++ quote value ++
      b! " for \"--json\" flag: strconv.ParseBool: parsing " ++ quote value ++ b! ": invalid syntax")) := by
  have e1 : quote (b! "-i, --in-place") = b! "\"-i, --in-place\"" := rfl
  have e2 : quote (b! "--json") = b! "\"--json\"" := rfl
  have r1 := C71_refusal help (.word (rest := post) hp (.assigned (f := ⟨b! "in-place", some 105, .bool⟩) (by decide) (.switch (v := value) rfl h1 h2)))
  have r2 := C71_refusal help (.word (rest := post) hp (.assigned (f := ⟨b! "json", none, .bool⟩) (by decide) (.switch (v := value) rfl h1 h2)))
  rw [show optionShown _ = b! "-i, --in-place" from rfl, e1] at r1
  rw [show optionShown _ = b! "--json" from rfl, e2] at r2
  simp only [List.append_assoc, List.cons_append, List.nil_append] at r1 r2 ⊢
  exact ⟨r1, r2⟩

/-- C71. A script option at the end, with no script behind it. -/
theorem C71_missing_script (help : Bytes) {pre : List Bytes} (hp : Whole editFlags pre) :
    editMain help (pre ++ [b! "--script"]) = .ret (some (b! "flag needs an argument: --script")) ∧
    editMain help (pre ++ [b! "-s"]) = .ret (some (b! "flag needs an argument: 's' in -s")) ∧
    editMain help (pre ++ [b! "-is"]) = .ret (some (b! "flag needs an argument: 's' in -s")) := by
  refine ⟨C71_refusal help (.missing (f := scriptFlag) hp (by decide) scriptFlag_takes), ?_, ?_⟩
  · exact C71_refusal help (.missingLetter (r := [115]) (f := scriptFlag) hp (by decide) (.next (by decide) rfl scriptFlag_takes) rfl)
  · exact C71_refusal help (.missingLetter (r := [105, 115]) (f := scriptFlag) hp (by decide)
      (.switch (f := ⟨b! "in-place", some 105, .bool⟩) (by decide) rfl rfl (by rintro ⟨v, _, h⟩; cases h) (.next (by decide) rfl scriptFlag_takes)) rfl)

/-- C71. Words of wrong letters or dashes. -/
example (help : Bytes) (rest : List Bytes) :
    editMain help (b! "a.txt" :: b! "-ixs" :: rest) = .ret (some (b! "unknown shorthand flag: 'x' in -xs")) ∧
    editMain help (b! "a.txt" :: b! "---s" :: rest) = .ret (some (b! "bad flag syntax: ---s")) ∧
    editMain help (b! "-e" :: b! "insert \"x\"" :: rest) = .ret (some (b! "invalid argument \"insert \\\"x\\\"\" for \"-e, --expression\" flag: bare \" in non-quoted field")) := by
  have pre : Whole editFlags [b! "a.txt"] := .operand (.inl (by decide)) .nil
  refine ⟨C71_refusal help (.word (pre := [b! "a.txt"]) pre ?_), C71_refusal help (.word (pre := [b! "a.txt"]) pre (.dashes (.inl rfl))), ?_⟩
  · exact .letters (r := [105, 120, 115]) (by decide)
      (.more (f := ⟨b! "in-place", some 105, .bool⟩) (by decide) rfl rfl (by rintro ⟨v, _, h⟩; cases h) (.unknown (by decide) (by decide)))
  · have hb : BadValue ⟨b! "expression", some 101, .slice⟩ (b! "insert \"x\"") (b! "invalid argument " ++ quote (b! "insert \"x\"") ++ b! " for " ++
        quote (optionShown ⟨b! "expression", some 101, .slice⟩) ++ b! " flag: bare \" in non-quoted field") :=
      .list rfl (.line (n := 0) (rest := b! "insert \"x\"") (by decide) (by decide) (.bare (f := b! "insert ") (by decide) (by decide)))
    exact C71_refusal help (.valueLetter (pre := []) (r := [101]) .nil (by decide)
      (.next (f := ⟨b! "expression", some 101, .slice⟩) (by decide) rfl (by unfold TakesValue; decide)) hb)

/-- C68. Which values are refused, and why: the first value of `-e` that is no record is the one that is named. -/
theorem C68_refused (pre post : List Bytes) (v e : Bytes) (a : EditArgs) (hp : ∀ u ∈ pre, ∃ fs, CsvValue u fs) (hv : CsvWrong v e) :
    editCommand (pre ++ v :: post) a = .ret (some (b! "invalid argument " ++ quote v ++ b! " for \"-e, --expression\" flag: " ++ e)) := by
  have key : setStringSlice (pre ++ v :: post) = .error (v, e) := by
    induction pre with
    | nil => rw [List.nil_append, setStringSlice, (readAsCSV_error_iff v e).2 hv]
    | cons u pre ih =>
      obtain ⟨fs, hfs⟩ := hp u (by simp)
      rw [List.cons_append, setStringSlice, (readAsCSV_iff u fs).2 hfs, ih fun u hu => hp u (by simp [hu])]
  rw [editCommand, key]
  have : quote (b! "-e, --expression") = b! "\"-e, --expression\"" := rfl
  simp [invalidArgument, this]

omit [Ext] in
/-- C68. Every value is a record or is refused for exactly one reason. -/
theorem C68_record_or_refused (v : Bytes) : ((∃ fs, CsvValue v fs) ∧ ∀ e, ¬ CsvWrong v e) ∨ ((∀ fs, ¬ CsvValue v fs) ∧ ∃ e, ∀ e', CsvWrong v e' ↔ e' = e) := by
  cases h : readAsCSV v with
  | ok l =>
    refine .inl ⟨⟨l, (readAsCSV_iff v l).1 h⟩, fun e he => ?_⟩
    rw [(readAsCSV_error_iff v e).2 he] at h; cases h
  | error e =>
    refine .inr ⟨fun fs hf => ?_, e, fun e' => ?_⟩
    · rw [(readAsCSV_iff v fs).2 hf] at h; cases h
    · rw [← readAsCSV_error_iff, h]
      constructor
      · intro h; injection h with h; exact h.symm
      · rintro rfl; rfl

omit [Ext] in
/-- A value of each wrong kind. -/
example : CsvWrong (b! "\n\n") (b! "EOF") ∧ CsvWrong (b! "a,b\"c") (b! "bare \" in non-quoted field") ∧
    CsvWrong (b! "\"a\"b") (b! "extraneous or missing \" in quoted-field") ∧ CsvWrong (b! "x,\"a,b") (b! "extraneous or missing \" in quoted-field") :=
  ⟨.noLine (n := 2) (by decide) (by decide),
   .line (n := 0) (rest := b! "a,b\"c") (by decide) (by decide) (.more (t := b! "a") (.bare (by decide)) (.bare (f := b! "b") (rest := b! "c") (by decide) (by decide))),
   .line (n := 0) (rest := b! "\"a\"b") (by decide) (by decide) (.behind (f := b! "a") (c := 98) (rest := []) (by decide) (by decide) (by decide)),
   .line (n := 0) (rest := b! "x,\"a,b") (by decide) (by decide) (.more (t := b! "x") (.bare (by decide)) (.unclosed (f := b! "a,b") (by decide)))⟩

end Texted
