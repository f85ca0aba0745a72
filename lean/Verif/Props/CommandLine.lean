import Verif.Lemmas.CommandLine
import Verif.Props.Flags
/- C71: the words of a command line. C68: values of repeatable options, exactly. -/
namespace Texted
open Spec
variable [Ext]

/-! ### The tables -/

omit [Ext] in
theorem editFlags_good : GoodTable editFlags := ⟨by decide, by decide, by decide, by decide⟩
omit [Ext] in
theorem parseFlags_good : GoodTable parseFlags := ⟨by decide, by decide, by decide, by decide⟩
omit [Ext] in
theorem testFlags_good : GoodTable testFlags := ⟨by decide, by decide, by decide, by decide⟩
omit [Ext] in
theorem docFlags_good : GoodTable docFlags := ⟨by decide, by decide, by decide, by decide⟩

/-! ### What settings amount to -/

omit [Ext] in
theorem strSetting_snoc (l : List (FlagDef × Bytes)) (s : FlagDef × Bytes) (n d : Bytes) :
    strSetting (l ++ [s]) n d = if s.1.name = n then s.2 else strSetting l n d := by
  rw [strSetting, List.foldl_append]; rfl

omit [Ext] in
theorem last_snoc (l : List (FlagDef × Bytes)) (s : FlagDef × Bytes) (n d v : Bytes) :
    Last (l ++ [s]) n d v ↔ (s.1.name = n ∧ v = s.2) ∨ (s.1.name ≠ n ∧ Last l n d v) := by
  constructor
  · intro h
    by_cases hs : s.1.name = n
    · refine .inl ⟨hs, ?_⟩
      cases h with
      | given h1 h2 h3 =>
        rename_i pre f post
        rcases List.eq_nil_or_concat post with rfl | ⟨p, x, rfl⟩
        · have := (List.append_inj' h1 rfl).2
          injection this with e; rw [e]
        · have h1 : l ++ [s] = (pre ++ (f, v) :: p) ++ [x] := by simpa using h1
          have := (List.append_inj' h1 rfl).2
          injection this with e
          exact absurd (e ▸ hs) (h3 x (by simp))
      | absent h => exact absurd hs (h s (by simp))
    · refine .inr ⟨hs, ?_⟩
      cases h with
      | given h1 h2 h3 =>
        rename_i pre f post
        rcases List.eq_nil_or_concat post with rfl | ⟨p, x, rfl⟩
        · have := (List.append_inj' h1 rfl).2
          injection this with e
          rw [e] at hs; exact absurd h2 hs
        · have h1 : l ++ [s] = (pre ++ (f, v) :: p) ++ [x] := by simpa using h1
          exact .given (List.append_inj' h1 rfl).1 h2 fun y hy => h3 y (by simp [hy])
      | absent h => exact .absent fun y hy => h y (by simp [hy])
  · rintro (⟨h1, rfl⟩ | ⟨h1, h2⟩)
    · exact .given (pre := l) (post := []) (f := s.1) rfl h1 (by simp)
    · cases h2 with
      | given e1 e2 e3 =>
        rename_i pre f post
        refine .given (pre := pre) (post := post ++ [s]) (f := f) (by rw [e1]; simp) e2 ?_
        intro y hy
        rcases List.mem_append.1 hy with hy | hy
        · exact e3 y hy
        · rw [List.mem_singleton.1 hy]; exact h1
      | absent h =>
        refine .absent ?_
        intro y hy
        rcases List.mem_append.1 hy with hy | hy
        · exact h y hy
        · rw [List.mem_singleton.1 hy]; exact h1

omit [Ext] in
theorem rev_ind {α : Type} {P : List α → Prop} (h0 : P []) (h1 : ∀ l a, P l → P (l ++ [a])) (l : List α) : P l := by
  have : ∀ k : List α, P k.reverse := by
    intro k
    induction k with
    | nil => exact h0
    | cons a k ih => rw [List.reverse_cons]; exact h1 _ a ih
  have := this l.reverse
  rwa [List.reverse_reverse] at this

omit [Ext] in
theorem strSetting_iff (l : List (FlagDef × Bytes)) (n d v : Bytes) : Last l n d v ↔ v = strSetting l n d := by
  induction l using rev_ind generalizing v with
  | h0 =>
    constructor
    · intro h
      cases h with
      | given h => simp at h
      | absent => rfl
    · rintro rfl; exact .absent (by simp)
  | h1 l s ih =>
    rw [last_snoc, strSetting_snoc]
    by_cases hs : s.1.name = n
    · rw [if_pos hs]; simp [hs]
    · rw [if_neg hs]; simp [hs, ih]

omit [Ext] in
/-- A boolean option, provided all the values given to it are booleans. -/
theorem boolSetting_iff (l : List (FlagDef × Bytes)) (n : Bytes) (h : ∀ s ∈ l, s.1.name = n → s.2 ∈ trueWords ∨ s.2 ∈ falseWords) :
    boolSetting l n = true ↔ On l n := by
  induction l using rev_ind with
  | h0 =>
    constructor
    · intro h; cases h
    · rintro ⟨v, h1, h2⟩
      cases h1 with
      | given h => simp at h
      | absent => exact absurd h2 (by decide)
  | h1 l s ih =>
    have ih := ih fun s hs => h s (by simp [hs])
    have e : boolSetting (l ++ [s]) n = if s.1.name = n then (parseBool s.2).getD (boolSetting l n) else boolSetting l n := by
      rw [boolSetting, List.foldl_append]; rfl
    rw [e]
    by_cases hs : s.1.name = n
    · rw [if_pos hs]
      rcases h s (by simp) hs with hv | hv
      · rw [(parseBool_true _).2 hv]
        exact ⟨fun _ => ⟨s.2, (last_snoc _ _ _ _ _).2 (.inl ⟨hs, rfl⟩), hv⟩, fun _ => rfl⟩
      · rw [(parseBool_false _).2 hv]
        refine ⟨fun h => (nomatch h), ?_⟩
        rintro ⟨v, h1, h2⟩
        rcases (last_snoc _ _ _ _ _).1 h1 with ⟨_, rfl⟩ | ⟨h, _⟩
        · rw [← parseBool_true] at h2; rw [← parseBool_false] at hv; rw [h2] at hv; cases hv
        · exact absurd hs h
    · rw [if_neg hs, ih]
      constructor
      · rintro ⟨v, h1, h2⟩; exact ⟨v, (last_snoc _ _ _ _ _).2 (.inr ⟨hs, h1⟩), h2⟩
      · rintro ⟨v, h1, h2⟩
        rcases (last_snoc _ _ _ _ _).1 h1 with ⟨h, _⟩ | ⟨_, h⟩
        · exact absurd h hs
        · exact ⟨v, h, h2⟩

omit [Ext] in
theorem csvValue_unique {v : Bytes} {a b : List Bytes} (h1 : CsvValue v a) (h2 : CsvValue v b) : a = b := by
  have e1 := (readAsCSV_iff v a).2 h1
  rw [(readAsCSV_iff v b).2 h2] at e1
  injection e1 with e1; exact e1.symm

omit [Ext] in
theorem strings_unique {n : Bytes} {l : List (FlagDef × Bytes)} {a b : List Bytes} (h1 : Strings n l a) (h2 : Strings n l b) : a = b := by
  induction h1 generalizing b with
  | nil => cases h2; rfl
  | other hn _ ih =>
    cases h2 with
    | other _ h => exact ih h
    | given h => exact absurd h hn
  | given hn hc _ ih =>
    cases h2 with
    | other h => exact absurd hn h
    | given _ hc' h => rw [csvValue_unique hc hc', ih h]

omit [Ext] in
theorem strings_set {n : Bytes} {l : List (FlagDef × Bytes)} {fs : List Bytes} (h : Strings n l fs) :
    setStringSlice (sliceSettings l n) = .ok fs := by
  induction h with
  | nil => rfl
  | other hn _ ih =>
    rw [sliceSettings, List.filter_cons_of_neg (by simpa using hn)]
    exact ih
  | given hn hc _ ih =>
    rw [sliceSettings, List.filter_cons_of_pos (by simpa using hn), List.map_cons, setStringSlice, (readAsCSV_iff _ _).2 hc]
    simp only
    rw [sliceSettings] at ih
    rw [ih]

/-! ### The settings of a command line are acceptable -/

omit [Ext] in
theorem true_fits {f : FlagDef} (h : f.kind = .bool) : Accepts f (b! "true") := by
  unfold Accepts; rw [h]; exact .inl (by decide)

omit [Ext] in
theorem cluster_fits {defs : List FlagDef} {r : Bytes} {l : List (FlagDef × Bytes)} {need : Option FlagDef} (h : Cluster defs r l need) :
    (∀ s ∈ l, s.1 ∈ defs ∧ Accepts s.1 s.2) ∧ ∀ f, need = some f → f ∈ defs := by
  induction h with
  | done => exact ⟨by simp, by simp⟩
  | switch h1 h2 h3 h4 h5 ih =>
    refine ⟨?_, ih.2⟩
    intro s hs
    rcases List.mem_cons.1 hs with rfl | hs
    · exact ⟨h1, true_fits h3⟩
    · exact ih.1 s hs
  | equals h1 h2 h3 h4 => exact ⟨by intro s hs; rw [List.mem_singleton.1 hs]; exact ⟨h1, h4⟩, by simp⟩
  | joined h1 h2 h3 h4 h5 h6 => exact ⟨by intro s hs; rw [List.mem_singleton.1 hs]; exact ⟨h1, h6⟩, by simp⟩
  | next h1 h2 h3 => exact ⟨by simp, by intro f hf; injection hf with hf; exact hf ▸ h1⟩
  | ignored => exact ⟨by simp, by simp⟩

omit [Ext] in
theorem optionWords_fits {defs : List FlagDef} {o : List Bytes} {l : List (FlagDef × Bytes)} (h : OptionWords defs o l) :
    ∀ s ∈ l, s.1 ∈ defs ∧ Accepts s.1 s.2 := by
  cases h with
  | switch h1 h2 => intro s hs; rw [List.mem_singleton.1 hs]; exact ⟨h1, true_fits h2⟩
  | assigned h1 h2 => intro s hs; rw [List.mem_singleton.1 hs]; exact ⟨h1, h2⟩
  | separate h1 h2 h3 => intro s hs; rw [List.mem_singleton.1 hs]; exact ⟨h1, h3⟩
  | letters h1 h2 h3 => exact (cluster_fits h3).1
  | lettersValue h2 h3 h4 =>
    intro s hs
    rcases List.mem_append.1 hs with hs | hs
    · exact (cluster_fits h3).1 s hs
    · rw [List.mem_singleton.1 hs]; exact ⟨(cluster_fits h3).2 _ rfl, h4⟩

omit [Ext] in
theorem commandLine_fits {defs : List FlagDef} {ws : List Bytes} {l : List (FlagDef × Bytes)} {files : List Bytes} (h : CommandLine defs ws l files) :
    ∀ s ∈ l, s.1 ∈ defs ∧ Accepts s.1 s.2 := by
  induction h with
  | nil => simp
  | dashes => simp
  | operand _ _ ih => exact ih
  | option h1 _ ih =>
    intro s hs
    rcases List.mem_append.1 hs with hs | hs
    · exact optionWords_fits h1 s hs
    · exact ih s hs

omit [Ext] in
/-- In a table, the values given to a boolean option are booleans. -/
theorem bools {defs : List FlagDef} {ws : List Bytes} {l : List (FlagDef × Bytes)} {files : List Bytes} (h : CommandLine defs ws l files)
    {n : Bytes} (hb : ∀ f ∈ defs, f.name = n → f.kind = .bool) : boolSetting l n = true ↔ On l n := by
  apply boolSetting_iff
  intro s hs hn
  obtain ⟨h1, h2⟩ := commandLine_fits h s hs
  unfold Accepts at h2
  rw [hb s.1 h1 hn] at h2
  exact h2

omit [Ext] in
/-- In a table, the values given to a repeatable option are records. -/
theorem slices {l : List (FlagDef × Bytes)} {n : Bytes} (h : ∀ s ∈ l, s.1.name = n → s.1.kind = .slice ∧ Accepts s.1 s.2) : ∃ fs, Strings n l fs := by
  induction l with
  | nil => exact ⟨_, .nil⟩
  | cons s l ih =>
    obtain ⟨fs, hf⟩ := ih fun s hs => h s (by simp [hs])
    obtain ⟨f, v⟩ := s
    by_cases hn : f.name = n
    · obtain ⟨h1, h2⟩ := h (f, v) (by simp) hn
      unfold Accepts at h2
      rw [h1] at h2
      obtain ⟨gs, hg⟩ := h2
      exact ⟨_, .given hn hg hf⟩
    · exact ⟨_, .other hn hf⟩

/-! ### C68 -/

omit [Ext] in
/-- C68. Exactly: a value of a repeatable option stands for the strings that one record of comma-separated values stands for, and it is
accepted iff it is such a record. -/
theorem C68_exact (v : Bytes) (fs : List Bytes) : setStringSlice [v] = .ok fs ↔ CsvValue v fs := by
  rw [← readAsCSV_iff, setStringSlice]
  cases readAsCSV v with
  | error e => simp
  | ok l => simp [setStringSlice]

omit [Ext] in
/-- Non-vacuity: quotes, commas, a CR LF inside quotes, an empty line before and another line behind. -/
example : CsvValue (b! "\n(point),\"(insert \"\"a\r\nb\"\")\",,x\n(mark)") [b! "(point)", b! "(insert \"a\nb\")", b! "", b! "x"] :=
  (readAsCSV_iff _ _).1 (by decide)

/-! ### C71 -/

omit [Ext] in
/-- C71. Every command line can be read in at most one way. -/
theorem C71_unique {defs : List FlagDef} (ht : GoodTable defs) {ws : List Bytes} {l l' : List (FlagDef × Bytes)} {files files' : List Bytes}
    (h : CommandLine defs ws l files) (h' : CommandLine defs ws l' files') : l = l' ∧ files = files' := by
  letI := litExt
  have e := parseWords_complete ht h
  rw [parseWords_complete ht h'] at e
  injection e with e; injection e with e1 e2
  exact ⟨e1.symm, e2.symm⟩

omit [Ext] in
/-- C71. Settings and operands stand for exactly one set of arguments of `texted edit`. -/
theorem C71_one_meaning {l : List (FlagDef × Bytes)} {files : List Bytes} {a b : EditArgs} (ha : EditMeaning l files a) (hb : EditMeaning l files b) : a = b := by
  have str : ∀ {n d x y}, Last l n d x → Last l n d y → x = y := fun h1 h2 => by
    rw [strSetting_iff] at h1 h2; rw [h1, h2]
  have bool : ∀ {n} {x y : Bool}, (x = true ↔ On l n) → (y = true ↔ On l n) → x = y := fun {n x y} h1 h2 => by
    have := h1.trans h2.symm
    cases x <;> cases y <;> simp_all
  obtain ⟨fs, s1, s2⟩ := ha.expressions
  obtain ⟨gs, t1, t2⟩ := hb.expressions
  have e := strings_unique s1 t1
  subst e
  have e1 := str ha.script hb.script
  have e2 := str ha.scriptFile hb.scriptFile
  have e3 := str ha.scriptFormat hb.scriptFormat
  have e4 := str ha.outputFile hb.outputFile
  have e5 := str ha.backupSuffix hb.backupSuffix
  have e6 := str ha.outputFormat hb.outputFormat
  have e7 := bool ha.inPlace hb.inPlace
  have e8 := bool ha.verbose hb.verbose
  have e9 := bool ha.quiet hb.quiet
  have e10 := bool ha.dryRun hb.dryRun
  have e11 := bool ha.shell hb.shell
  have e12 := bool ha.sexp hb.sexp
  have e13 := bool ha.json hb.json
  have e14 := ha.files.trans hb.files.symm
  have e15 := s2.trans t2.symm
  cases a; cases b
  simp only at e1 e2 e3 e4 e5 e6 e7 e8 e9 e10 e11 e12 e13 e14 e15
  subst e1 e2 e3 e4 e5 e6 e7 e8 e9 e10 e11 e12 e13 e14 e15
  rfl

omit [Ext] in
/-- C71. Every accepted command line has a meaning. -/
theorem C71_has_meaning {ws : List Bytes} {l : List (FlagDef × Bytes)} {files : List Bytes} (h : CommandLine editFlags ws l files) :
    ∃ fs, Strings (b! "expression") l fs ∧ EditMeaning l files { editArgs l files with expressions := if fs = [[]] then [] else fs.map unCRLF } := by
  have fit := commandLine_fits h
  obtain ⟨fs, hfs⟩ : ∃ fs, Strings (b! "expression") l fs := slices fun s hs hn => by
    obtain ⟨h1, h2⟩ := fit s hs
    exact ⟨(by decide : ∀ f ∈ editFlags, f.name = b! "expression" → f.kind = .slice) s.1 h1 hn, h2⟩
  refine ⟨fs, hfs, ?_⟩
  constructor <;> first
    | exact (strSetting_iff _ _ _ _).2 rfl
    | exact bools h (by decide)
    | exact ⟨fs, hfs, rfl⟩
    | rfl

/-- C71. What `texted edit` does with an accepted command line: it runs with the arguments that the words stand for. -/
theorem C71_meaning (help : Bytes) {ws : List Bytes} {l : List (FlagDef × Bytes)} {files : List Bytes} (h : CommandLine editFlags ws l files)
    (hh : ¬ On l (b! "help")) {a : EditArgs} (ha : EditMeaning l files a) : editMain help ws = runEdit a := by
  obtain ⟨fs, h1, h2⟩ := C71_has_meaning h
  rw [C71_one_meaning ha h2, editMain, parseWords_complete editFlags_good h]
  simp only
  rw [if_neg (fun hc => hh ((bools h (by decide)).1 hc)), C68_accepted _ _ _ (strings_set h1)]

/-- C71. With the help option the help is printed, and nothing else happens. -/
theorem C71_help (help : Bytes) {ws : List Bytes} {l : List (FlagDef × Bytes)} {files : List Bytes} (h : CommandLine editFlags ws l files)
    (hh : On l (b! "help")) : editMain help ws = .act (.print help) fun _ => .ret none := by
  rw [editMain, parseWords_complete editFlags_good h]
  simp only
  rw [if_pos ((bools h (by decide)).2 hh)]

/-- C71. Any other command line is refused: the command fails without performing any action. -/
theorem C71_refused (help : Bytes) (ws : List Bytes) (h : ∀ l files, ¬ CommandLine editFlags ws l files) : ∃ e, editMain help ws = .ret (some e) := by
  rw [editMain]
  cases hp : parseWords editFlags ws with
  | error e => exact ⟨_, rfl⟩
  | ok p => exact absurd ((parseWords_iff editFlags_good ws p.1 p.2).1 hp) (h _ _)

/-! ### Consequences -/

/-- Complete words in front only add settings and operands. -/
theorem whole_read {defs : List FlagDef} (ht : GoodTable defs) {pre : List Bytes} (h : Whole defs pre) :
    ∃ s fs, CommandLine defs pre s fs ∧ ∀ x, parseWords defs (pre ++ x) = match parseWords defs x with
      | .ok (l, files) => .ok (s ++ l, fs ++ files)
      | .error e => .error e := by
  induction h with
  | nil => exact ⟨[], [], .nil, fun x => by rw [List.nil_append]; cases parseWords defs x <;> rfl⟩
  | operand hw _ ih =>
    obtain ⟨s, fs, h1, h2⟩ := ih
    refine ⟨s, _ :: fs, .operand hw h1, fun x => ?_⟩
    rw [List.cons_append, parseWords_operand hw, h2]
    cases parseWords defs x <;> rfl
  | option ho _ ih =>
    obtain ⟨s, fs, h1, h2⟩ := ih
    refine ⟨_ ++ s, fs, .option ho h1, fun x => ?_⟩
    rw [List.append_assoc, parseWords_option ht ho, h2]
    cases parseWords defs x with
    | error e => rfl
    | ok p => simp [addSettings]

/-- Two command lines that are read the same are the same command. -/
theorem editMain_congr (help : Bytes) {ws ws' : List Bytes} (h : parseWords editFlags ws = parseWords editFlags ws') : editMain help ws = editMain help ws' := by
  rw [editMain, editMain, h]

/-- C71. Options and files can be given in any order: a file in front of an option may as well stand behind it. -/
theorem C71_any_order (help : Bytes) {pre o post : List Bytes} {w : Bytes} {s : List (FlagDef × Bytes)} (hp : Whole editFlags pre)
    (ho : OptionWords editFlags o s) (hw : Operand w) :
    editMain help (pre ++ w :: (o ++ post)) = editMain help (pre ++ (o ++ w :: post)) := by
  apply editMain_congr
  obtain ⟨s', fs, _, h2⟩ := whole_read editFlags_good hp
  rw [h2, h2, parseWords_operand hw, parseWords_option editFlags_good ho, parseWords_option editFlags_good ho, parseWords_operand hw]
  cases parseWords editFlags post <;> rfl

omit [Ext] in
/-- C71. Behind `--` every word is a file, whatever it looks like. -/
theorem C71_dashes {defs : List FlagDef} {pre : List Bytes} (h : Whole defs pre) : ∃ l fs, CommandLine defs pre l fs ∧
    ∀ files, CommandLine defs (pre ++ b! "--" :: files) l (fs ++ files) := by
  induction h with
  | nil => exact ⟨[], [], .nil, fun files => .dashes⟩
  | operand hw _ ih =>
    obtain ⟨l, fs, h1, h2⟩ := ih
    exact ⟨l, _, .operand hw h1, fun files => .operand hw (h2 files)⟩
  | option ho _ ih =>
    obtain ⟨l, fs, h1, h2⟩ := ih
    exact ⟨_, fs, .option ho h1, fun files => by rw [List.append_assoc]; exact .option ho (h2 files)⟩

omit [Ext] in
/-- The option for the script. -/
def scriptFlag : FlagDef := { name := b! "script", short := some 115, kind := .str }

omit [Ext] in
theorem scriptFlag_takes : TakesValue scriptFlag := by unfold TakesValue; decide

omit [Ext] in
theorem script_ways (v : Bytes) :
    OptionWords editFlags [b! "-s", v] [(scriptFlag, v)] ∧ OptionWords editFlags [b! "--script", v] [(scriptFlag, v)] ∧
    OptionWords editFlags [b! "--script=" ++ v] [(scriptFlag, v)] ∧
    (v ≠ [] → OptionWords editFlags [b! "-s=" ++ v] [(scriptFlag, v)]) ∧
    (v ≠ [] → ¬ Assigns v → OptionWords editFlags [b! "-s" ++ v] [(scriptFlag, v)]) := by
  have hm : scriptFlag ∈ editFlags := by decide
  refine ⟨.lettersValue (r := [115]) (l := []) (by decide) (.next hm rfl scriptFlag_takes) trivial, .separate hm scriptFlag_takes trivial,
    .assigned hm trivial, fun hv => .letters (r := 115 :: 61 :: v) (by simp) (by simp) (.equals hm rfl hv trivial),
    fun hv ha => .letters (r := 115 :: v) (by simp) (by simp) (.joined hm rfl scriptFlag_takes hv ha trivial)⟩

/-- C71. The script can be given in five ways, and is taken as it is, whatever it looks like (even if it begins with `-`, or is empty). With the
script joined to the letter, a leading `=` that has something behind it is dropped. -/
theorem C71_script_as_is (help : Bytes) {pre post : List Bytes} (hp : Whole editFlags pre) (v : Bytes) :
    editMain help (pre ++ b! "-s" :: v :: post) = editMain help (pre ++ b! "--script" :: v :: post) ∧
    editMain help (pre ++ b! "-s" :: v :: post) = editMain help (pre ++ (b! "--script=" ++ v) :: post) ∧
    (v ≠ [] → editMain help (pre ++ b! "-s" :: v :: post) = editMain help (pre ++ (b! "-s=" ++ v) :: post)) ∧
    (v ≠ [] → ¬ Assigns v → editMain help (pre ++ b! "-s" :: v :: post) = editMain help (pre ++ (b! "-s" ++ v) :: post)) := by
  obtain ⟨h1, h2, h3, h4, h5⟩ := script_ways v
  obtain ⟨s', fs, _, hw⟩ := whole_read editFlags_good hp
  have same : ∀ {o o' : List Bytes}, OptionWords editFlags o [(scriptFlag, v)] → OptionWords editFlags o' [(scriptFlag, v)] →
      editMain help (pre ++ (o ++ post)) = editMain help (pre ++ (o' ++ post)) := by
    intro o o' ho ho'
    apply editMain_congr
    rw [hw, hw, parseWords_option editFlags_good ho, parseWords_option editFlags_good ho']
  exact ⟨same h1 h2, same h1 h3, fun hv => same h1 (h4 hv), fun hv ha => same h1 (h5 hv ha)⟩

omit [Ext] in
theorem setting_overridden (l m r : List (FlagDef × Bytes)) (f : FlagDef) (v w : Bytes) (n : Bytes) (d : Bytes) :
    strSetting (l ++ (f, v) :: (m ++ (f, w) :: r)) n d = strSetting (l ++ (m ++ (f, w) :: r)) n d := by
  have h2 : ∀ (x : List (FlagDef × Bytes)) (a b : Bytes), (f.name ≠ n → a = b) →
      (x ++ (f, w) :: r).foldl (fun acc s => if s.1.name = n then s.2 else acc) a =
      (x ++ (f, w) :: r).foldl (fun acc s => if s.1.name = n then s.2 else acc) b := by
    intro x a b hab
    rw [List.foldl_append, List.foldl_append, List.foldl_cons, List.foldl_cons]
    by_cases hn : f.name = n
    · simp only [hn, if_true]
    · rw [hab hn]
  rw [strSetting, strSetting, List.foldl_append, List.foldl_append, List.foldl_cons]
  apply h2
  intro hn
  simp only [hn, if_false]

/-- C71, FINDING: docs/cli.md says of `-s`, `--script` that it "can be used multiple times". Only the last script counts, all the others are dropped
without notice. -/
theorem C71_false_several_scripts (help : Bytes) {pre mid post : List Bytes} (hp : Whole editFlags pre) (hm : Whole editFlags mid) (v w : Bytes) :
    editMain help (pre ++ b! "-s" :: v :: (mid ++ b! "-s" :: w :: post)) = editMain help (pre ++ (mid ++ b! "-s" :: w :: post)) := by
  obtain ⟨s1, f1, _, h1⟩ := whole_read editFlags_good hp
  obtain ⟨s2, f2, _, h2⟩ := whole_read editFlags_good hm
  have hv := parseWords_option editFlags_good (script_ways v).1
  have hw := parseWords_option editFlags_good (script_ways w).1
  simp only [List.cons_append, List.nil_append] at hv hw
  unfold editMain
  rw [h1, h1, hv, h2, hw]
  cases parseWords editFlags post with
  | error e => rfl
  | ok p =>
    obtain ⟨l, files⟩ := p
    simp only [addSettings, List.cons_append, List.nil_append]
    have hs : ∀ n d, strSetting (s1 ++ (scriptFlag, v) :: (s2 ++ (scriptFlag, w) :: l)) n d = strSetting (s1 ++ (s2 ++ (scriptFlag, w) :: l)) n d :=
      fun n d => setting_overridden s1 s2 l scriptFlag v w n d
    have hb : ∀ n, n ≠ b! "script" → boolSetting (s1 ++ (scriptFlag, v) :: (s2 ++ (scriptFlag, w) :: l)) n =
        boolSetting (s1 ++ (s2 ++ (scriptFlag, w) :: l)) n := by
      intro n hn
      rw [boolSetting, boolSetting, List.foldl_append, List.foldl_append, List.foldl_cons, if_neg (fun h => hn h.symm)]
    have hl : ∀ n, n ≠ b! "script" → sliceSettings (s1 ++ (scriptFlag, v) :: (s2 ++ (scriptFlag, w) :: l)) n =
        sliceSettings (s1 ++ (s2 ++ (scriptFlag, w) :: l)) n := by
      intro n hn
      rw [sliceSettings, sliceSettings, List.filter_append, List.filter_append,
        List.filter_cons_of_neg (by simpa using fun h : scriptFlag.name = n => hn h.symm)]
    rw [hb _ (by decide), hl _ (by decide)]
    unfold editArgs
    simp only [hs]
    simp only [hb (b! "in-place") (by decide), hb (b! "verbose") (by decide), hb (b! "quiet") (by decide), hb (b! "dry-run") (by decide),
      hb (b! "shell") (by decide), hb (b! "sexp") (by decide), hb (b! "json") (by decide)]

/-- C71. An option that does not exist is refused wherever it stands: nothing is read, written or printed. -/
theorem C71_unknown_option (help : Bytes) {pre : List Bytes} (hp : Whole editFlags pre) (name : Bytes) (value : Bytes) (post : List Bytes)
    (hn : ∀ f ∈ editFlags, f.name ≠ name) (he : 61 ∉ name) (hne : name ≠ []) :
    ∃ e, editMain help (pre ++ (b! "--" ++ name) :: post) = .ret (some e) ∧
    ∃ e', editMain help (pre ++ (b! "--" ++ name ++ b! "=" ++ value) :: post) = .ret (some e') := by
  obtain ⟨s, fs, _, h2⟩ := whole_read editFlags_good hp
  have bad : ∀ x, (∃ e, readLong editFlags (name ++ x) = .error e) → ∃ e, editMain help (pre ++ (b! "--" ++ (name ++ x)) :: post) = .ret (some e) := by
    rintro x ⟨e, hx⟩
    unfold editMain
    rw [h2, parseWords.eq_def]
    simp only
    have hr : readWord editFlags (b! "--" ++ (name ++ x)) = .error e := by rw [readWord, if_pos ⟨_, rfl⟩]; exact hx
    rw [if_neg (by simp), if_neg, hr]
    · exact ⟨_, rfl⟩
    · intro h
      have : name ++ x = [] := List.append_cancel_left (h.trans (List.append_nil _).symm)
      exact hne (List.append_eq_nil_iff.1 this).1
  have miss : findLong editFlags name = none := List.find?_eq_none.2 fun f hf => by simpa using hn f hf
  have e1 : ∃ e, readLong editFlags (name ++ []) = .error e := by
    rw [List.append_nil]
    unfold readLong
    split
    · exact ⟨_, rfl⟩
    · rw [cutEquals_none he, miss]; exact ⟨_, rfl⟩
  have e2 : ∃ e, readLong editFlags (name ++ 61 :: value) = .error e := by
    unfold readLong
    split
    · exact ⟨_, rfl⟩
    · rw [cutEquals_some he, miss]; exact ⟨_, rfl⟩
  obtain ⟨e, he1⟩ := bad [] e1
  obtain ⟨e', he2⟩ := bad _ e2
  rw [List.append_nil] at he1
  exact ⟨e, he1, e', by rw [← he2]; simp⟩

omit [Ext] in
theorem operands_line {defs : List FlagDef} {files : List Bytes} (h : ∀ f ∈ files, Operand f) : CommandLine defs files [] files := by
  induction files with
  | nil => exact .nil
  | cons f r ih => exact .operand (h f (by simp)) (ih fun g hg => h g (by simp [hg]))

omit [Ext] in
theorem inPlace_letters (script : Bytes) : OptionWords editFlags [b! "-is", script] [({ name := b! "in-place", short := some 105, kind := .bool }, b! "true"), (scriptFlag, script)] :=
  .lettersValue (r := [105, 115]) (l := [_]) (by decide)
    (.switch (r := [115]) (by decide) rfl rfl (by rintro ⟨v, _, h⟩; cases h) (.next (by decide) rfl scriptFlag_takes)) trivial

/-- C71, the everyday commands, from the words to the run: for every script and all files whose names do not begin with `-` (or any names, behind
`--`), `texted edit -s SCRIPT FILES...` and `texted edit -i -s SCRIPT FILES...` run that script on those files. -/
theorem C71_everyday (help script : Bytes) (files : List Bytes) :
    editMain help (b! "-s" :: script :: b! "--" :: files) = runEdit { script := script, files := files } ∧
    editMain help (b! "-i" :: b! "-s" :: script :: b! "--" :: files) = runEdit { script := script, files := files, inPlace := true } ∧
    editMain help (b! "-is" :: script :: b! "--" :: files) = runEdit { script := script, files := files, inPlace := true } ∧
    ((∀ f ∈ files, Operand f) →
      editMain help (b! "-s" :: script :: files) = runEdit { script := script, files := files } ∧
      editMain help (b! "-i" :: b! "-s" :: script :: files) = runEdit { script := script, files := files, inPlace := true }) := by
  have hs := (script_ways script).1
  have hi : OptionWords editFlags [b! "-i"] [({ name := b! "in-place", short := some 105, kind := .bool }, b! "true")] :=
    .letters (r := [105]) (by decide) (by decide) (.switch (r := []) (by decide) rfl rfl (by rintro ⟨v, _, h⟩; cases h) .done)
  have key : ∀ {ws l}, CommandLine editFlags ws l files → boolSetting l (b! "help") = false → sliceSettings l (b! "expression") = [] →
      editMain help ws = runEdit { editArgs l files with expressions := [] } := by
    intro ws l h1 h2 h3
    rw [editMain, parseWords_complete editFlags_good h1]
    simp only [h2, h3]
    rfl
  refine ⟨?_, ?_, ?_, fun hf => ⟨?_, ?_⟩⟩
  · exact key (.option hs .dashes) rfl rfl
  · exact key (.option hi (.option hs .dashes)) rfl rfl
  · exact key (.option (inPlace_letters script) .dashes) rfl rfl
  · exact key (.option hs (operands_line hf)) rfl rfl
  · exact key (.option hi (.option hs (operands_line hf))) rfl rfl

/-- An option word in front of `-s SCRIPT -- FILES...`. -/
theorem edit_with (help script : Bytes) (files : List Bytes) {o : List Bytes} {s : List (FlagDef × Bytes)} (ho : OptionWords editFlags o s)
    (h1 : boolSetting (s ++ [(scriptFlag, script)]) (b! "help") = false) :
    editMain help (o ++ b! "-s" :: script :: b! "--" :: files) =
      editCommand (sliceSettings (s ++ [(scriptFlag, script)]) (b! "expression")) (editArgs (s ++ [(scriptFlag, script)]) files) := by
  have h := CommandLine.option ho (.option (script_ways script).1 (.dashes (files := files)))
  rw [show o ++ b! "-s" :: script :: b! "--" :: files = o ++ ([b! "-s", script] ++ b! "--" :: files) from rfl, editMain, parseWords_complete editFlags_good h]
  simp only [List.append_nil, h1]
  rfl

omit [Ext] in
/-- A boolean option can be written `--name`, and `-c` if it has a letter. -/
theorem switch_words {f : FlagDef} (hf : f ∈ editFlags) (hb : f.kind = .bool) : OptionWords editFlags [b! "--" ++ f.name] [(f, b! "true")] ∧
    ∀ c, f.short = some c → OptionWords editFlags [[45, c]] [(f, b! "true")] :=
  ⟨.switch hf hb, fun c hc => .letters (r := [c]) (by simp)
    (by intro h; injection h with h; exact (editFlags_good.noT f hf).2 (by rw [hc, h]))
    (.switch (r := []) hf hc hb (by rintro ⟨v, _, h⟩; cases h) .done)⟩

omit [Ext] in
/-- An option with a value can be written `--name VALUE`, `--name=VALUE`, and `-c VALUE` if it has a letter. -/
theorem value_words {f : FlagDef} (hf : f ∈ editFlags) (hk : f.kind = .str) (v : Bytes) : OptionWords editFlags [b! "--" ++ f.name, v] [(f, v)] ∧
    OptionWords editFlags [b! "--" ++ f.name ++ b! "=" ++ v] [(f, v)] ∧
    ∀ c, f.short = some c → OptionWords editFlags [[45, c], v] [(f, v)] := by
  have ha : Accepts f v := by unfold Accepts; rw [hk]; trivial
  have ht : TakesValue f := by unfold TakesValue; rw [hk]; decide
  exact ⟨.separate hf ht ha, .assigned hf ha, fun c hc => .lettersValue (r := [c]) (l := [])
    (by intro h; injection h with h; exact (editFlags_good.noT f hf).2 (by rw [hc, h])) (.next hf hc ht) ha⟩

/-- C71. Each switch of docs/cli.md, by its letter and by its name: what it changes in the run of a script on files. -/
theorem C71_switches (help script : Bytes) (files : List Bytes) :
    let run (w : Bytes) := editMain help (w :: b! "-s" :: script :: b! "--" :: files)
    let base : EditArgs := { script := script, files := files }
    (run (b! "-i") = runEdit { base with inPlace := true } ∧ run (b! "--in-place") = runEdit { base with inPlace := true }) ∧
    (run (b! "-v") = runEdit { base with verbose := true } ∧ run (b! "--verbose") = runEdit { base with verbose := true }) ∧
    (run (b! "-q") = runEdit { base with quiet := true } ∧ run (b! "--quiet") = runEdit { base with quiet := true }) ∧
    (run (b! "-n") = runEdit { base with dryRun := true } ∧ run (b! "--dry-run") = runEdit { base with dryRun := true }) ∧
    run (b! "--shell") = runEdit { base with shell := true } ∧ run (b! "--sexp") = runEdit { base with sexp := true } ∧
    run (b! "--json") = runEdit { base with json := true } ∧
    (run (b! "-h") = (.act (.print help) fun _ => .ret none) ∧ run (b! "--help") = (.act (.print help) fun _ => .ret none)) := by
  intro run base
  have sw : ∀ {w : Bytes} {f : FlagDef}, OptionWords editFlags [w] [(f, b! "true")] → boolSetting [(f, b! "true"), (scriptFlag, script)] (b! "help") = false →
      run w = editCommand (sliceSettings [(f, b! "true"), (scriptFlag, script)] (b! "expression")) (editArgs [(f, b! "true"), (scriptFlag, script)] files) :=
    fun ho h1 => edit_with help script files ho h1
  have hp : ∀ {w : Bytes}, OptionWords editFlags [w] [(helpFlag, b! "true")] → run w = (.act (.print help) fun _ => .ret none) := by
    intro w ho
    exact C71_help help (.option ho (.option (script_ways script).1 .dashes))
      ⟨b! "true", .given (pre := []) (f := helpFlag) (post := [(scriptFlag, script)]) rfl rfl (by intro s hs; rw [List.mem_singleton.1 hs]; exact (by decide : scriptFlag.name ≠ b! "help")), by decide⟩
  have i := switch_words (f := ⟨b! "in-place", some 105, .bool⟩) (by decide) rfl
  have v := switch_words (f := ⟨b! "verbose", some 118, .bool⟩) (by decide) rfl
  have q := switch_words (f := ⟨b! "quiet", some 113, .bool⟩) (by decide) rfl
  have n := switch_words (f := ⟨b! "dry-run", some 110, .bool⟩) (by decide) rfl
  have h := switch_words (f := helpFlag) (by decide) rfl
  exact ⟨⟨sw (i.2 _ rfl) rfl, sw i.1 rfl⟩, ⟨sw (v.2 _ rfl) rfl, sw v.1 rfl⟩, ⟨sw (q.2 _ rfl) rfl, sw q.1 rfl⟩, ⟨sw (n.2 _ rfl) rfl, sw n.1 rfl⟩,
    sw (switch_words (f := ⟨b! "shell", none, .bool⟩) (by decide) rfl).1 rfl, sw (switch_words (f := ⟨b! "sexp", none, .bool⟩) (by decide) rfl).1 rfl,
    sw (switch_words (f := ⟨b! "json", none, .bool⟩) (by decide) rfl).1 rfl, hp (h.2 _ rfl), hp h.1⟩

/-- C71. Each option with a value of docs/cli.md (and `--output-format`, which is missing there): what it changes in the run of a script on files. -/
theorem C71_values (help script v : Bytes) (files : List Bytes) :
    let run (o : List Bytes) := editMain help (o ++ b! "-s" :: script :: b! "--" :: files)
    let base : EditArgs := { script := script, files := files }
    (run [b! "-f", v] = runEdit { base with scriptFile := v } ∧ run [b! "--file", v] = runEdit { base with scriptFile := v } ∧
      run [b! "--file=" ++ v] = runEdit { base with scriptFile := v }) ∧
    (run [b! "-o", v] = runEdit { base with outputFile := v } ∧ run [b! "--output", v] = runEdit { base with outputFile := v } ∧
      run [b! "--output=" ++ v] = runEdit { base with outputFile := v }) ∧
    (run [b! "--backup", v] = runEdit { base with backupSuffix := v } ∧ run [b! "--backup=" ++ v] = runEdit { base with backupSuffix := v }) ∧
    (run [b! "--format", v] = runEdit { base with scriptFormat := v } ∧ run [b! "--format=" ++ v] = runEdit { base with scriptFormat := v }) ∧
    (run [b! "--output-format", v] = runEdit { base with outputFormat := v } ∧ run [b! "--output-format=" ++ v] = runEdit { base with outputFormat := v }) ∧
    ((∀ c ∈ v, c ≠ 10 ∧ c ≠ 13 ∧ c ≠ 34 ∧ c ≠ 44) → v ≠ [] →
      run [b! "-e", v] = runEdit { base with expressions := [v] } ∧ run [b! "--expression", v] = runEdit { base with expressions := [v] } ∧
      run [b! "--expression=" ++ v] = runEdit { base with expressions := [v] }) := by
  intro run base
  have sw : ∀ {o : List Bytes} {f : FlagDef}, OptionWords editFlags o [(f, v)] → boolSetting [(f, v), (scriptFlag, script)] (b! "help") = false →
      run o = editCommand (sliceSettings [(f, v), (scriptFlag, script)] (b! "expression")) (editArgs [(f, v), (scriptFlag, script)] files) :=
    fun ho h1 => edit_with help script files ho h1
  have f := value_words (f := ⟨b! "file", some 102, .str⟩) (by decide) rfl v
  have o := value_words (f := ⟨b! "output", some 111, .str⟩) (by decide) rfl v
  have b := value_words (f := ⟨b! "backup", none, .str⟩) (by decide) rfl v
  have m := value_words (f := ⟨b! "format", none, .str⟩) (by decide) rfl v
  have u := value_words (f := ⟨b! "output-format", none, .str⟩) (by decide) rfl v
  refine ⟨⟨sw (f.2.2 _ rfl) rfl, sw f.1 rfl, sw f.2.1 rfl⟩, ⟨sw (o.2.2 _ rfl) rfl, sw o.1 rfl, sw o.2.1 rfl⟩, ⟨sw b.1 rfl, sw b.2.1 rfl⟩,
    ⟨sw m.1 rfl, sw m.2.1 rfl⟩, ⟨sw u.1 rfl, sw u.2.1 rfl⟩, fun hv hne => ?_⟩
  have hm : (⟨b! "expression", some 101, .slice⟩ : FlagDef) ∈ editFlags := by decide
  have h1 : OneLine v := fun c hc => ⟨(hv c hc).1, (hv c hc).2.1, (hv c hc).2.2.1⟩
  have ha : Accepts ⟨b! "expression", some 101, .slice⟩ v := ⟨_, (readAsCSV_iff v _).1 (readAsCSV_oneLine v h1 hne)⟩
  have ht : TakesValue ⟨b! "expression", some 101, .slice⟩ := by unfold TakesValue; decide
  have e : ∀ a, editCommand [v] a = runEdit { a with expressions := [v] } := fun a =>
    C68_plain [v] a (by intro x hx; rw [List.mem_singleton.1 hx]; exact ⟨h1, hne, fun hc => (hv _ hc).2.2.2 rfl⟩)
  exact ⟨(sw (.lettersValue (r := [101]) (l := []) (by decide) (.next hm rfl ht) ha) rfl).trans (e _), (sw (.separate hm ht ha) rfl).trans (e _),
    (sw (.assigned hm ha) rfl).trans (e _)⟩

omit [Ext] in
/-- C71. There are no other options. -/
theorem C71_no_other_option : editFlags.map (fun f => (f.name, f.short)) = [(b! "script", some 115), (b! "file", some 102), (b! "expression", some 101),
    (b! "in-place", some 105), (b! "output", some 111), (b! "backup", none), (b! "format", none), (b! "shell", none), (b! "sexp", none), (b! "json", none),
    (b! "verbose", some 118), (b! "quiet", some 113), (b! "dry-run", some 110), (b! "output-format", none), (b! "help", some 104)] ∧
    testFlags.map (fun f => (f.name, f.short)) = [(b! "verbose", some 118), (b! "quiet", some 113), (b! "fail-only", none), (b! "trace", none),
      (b! "include", some 105), (b! "help", some 104)] ∧
    parseFlags.map (fun f => (f.name, f.short)) = [(b! "input-format", none), (b! "output-format", none), (b! "help", some 104)] ∧
    docFlags.map (fun f => (f.name, f.short)) = [(b! "category", none), (b! "verbose", some 118), (b! "help", some 104)] := ⟨rfl, rfl, rfl, rfl⟩

/-- C71, FINDINGS about docs/cli.md: there is no `--version`; and in `texted edit [OPTIONS] [SCRIPT] [FILE...]` the script is a file name like the
others, so that without `-s`, `-f` or `-e` the command always fails. A `-` is not standard input but a file of that name. -/
theorem C71_false_synopsis (help : Bytes) : (∃ e, editMain help [b! "--version"] = .ret (some e)) ∧
    (∀ words, words ≠ [] → (∀ w ∈ words, Operand w) →
      editMain help words = .ret (some (b! "either --script, --file, or --expression must be specified"))) ∧
    (∀ script, editMain help [b! "-s", script, b! "-"] = runEdit { script := script, files := [b! "-"] }) := by
  refine ⟨?_, ?_, ?_⟩
  · obtain ⟨e, h, _⟩ := C71_unknown_option help (.nil) (b! "version") [] [] (by decide) (by decide) (by decide)
    exact ⟨e, h⟩
  · intro words hne hw
    rw [editMain, parseWords_complete editFlags_good (operands_line hw)]
    rfl
  · intro script
    exact ((C71_everyday help script [b! "-"]).2.2.2 (by intro f hf; rw [List.mem_singleton.1 hf]; exact .inr rfl)).1

omit [Ext] in
/-- Non-vacuity of the general statements: a command line that uses all the ways to write options, its settings and its files. -/
example : letI := litExt
    let l : List (FlagDef × Bytes) := [(⟨b! "verbose", some 118, .bool⟩, b! "true"), (⟨b! "in-place", some 105, .bool⟩, b! "true"),
      (⟨b! "script", some 115, .str⟩, b! "--script"), (⟨b! "backup", none, .str⟩, b! ".orig"), (⟨b! "expression", some 101, .slice⟩, b! "q=x,y"),
      (⟨b! "json", none, .bool⟩, b! "False"), (⟨b! "format", none, .str⟩, b! "sexp")]
    CommandLine editFlags [b! "a", b! "-vis", b! "--script", b! "--backup=.orig", b! "-", b! "-eq=x,y", b! "--json=False", b! "--format", b! "sexp",
        b! "--", b! "-n"] l [b! "a", b! "-", b! "-n"] ∧ Last l (b! "script") [] (b! "--script") ∧ On l (b! "in-place") ∧ ¬ On l (b! "json") ∧
      ¬ On l (b! "help") ∧ Strings (b! "expression") l [b! "q=x", b! "y"] := by
  letI := litExt
  intro l
  have h : CommandLine editFlags _ l _ := (parseWords_iff editFlags_good [b! "a", b! "-vis", b! "--script", b! "--backup=.orig", b! "-", b! "-eq=x,y",
    b! "--json=False", b! "--format", b! "sexp", b! "--", b! "-n"] l [b! "a", b! "-", b! "-n"]).1 (by decide +kernel)
  refine ⟨h, (strSetting_iff _ _ _ _).2 (by decide), (bools h (by decide)).1 (by decide), fun hc => absurd ((bools h (by decide)).2 hc) (by decide),
    fun hc => absurd ((bools h (by decide)).2 hc) (by decide), ?_⟩
  obtain ⟨fs, hfs, _⟩ := C71_has_meaning h
  have e := strings_set hfs
  rw [show setStringSlice (sliceSettings l (b! "expression")) = .ok [b! "q=x", b! "y"] from by decide] at e
  injection e with e
  rw [e]; exact hfs

/-! ### The other commands -/

/-- C71. `texted parse`: the formats are the last ones given; operands are ignored. -/
theorem C71_parse (help : Bytes) {ws : List Bytes} {l : List (FlagDef × Bytes)} {files : List Bytes} (h : CommandLine parseFlags ws l files)
    (hh : ¬ On l (b! "help")) {i o : Bytes} (hi : Last l (b! "input-format") (b! "shell") i) (ho : Last l (b! "output-format") (b! "sexp") o) (stdin : Bytes) :
    parseMain help ws stdin = runParse i o stdin := by
  rw [strSetting_iff] at hi ho
  rw [parseMain, parseWords_complete parseFlags_good h]
  simp only
  rw [if_neg (fun hc => hh ((bools h (by decide)).1 hc)), hi, ho]

/-- C71. `texted parse` refuses any other command line without output. -/
theorem C71_parse_refused (help : Bytes) (ws : List Bytes) (h : ∀ l files, ¬ CommandLine parseFlags ws l files) (stdin : Bytes) :
    ∃ e, parseMain help ws stdin = some { out := [], err := some e } := by
  rw [parseMain]
  cases hp : parseWords parseFlags ws with
  | error e => exact ⟨_, rfl⟩
  | ok p => exact absurd ((parseWords_iff parseFlags_good ws p.1 p.2).1 hp) (h _ _)

/-- C71. `texted test`: the arguments are what the words stand for; the patterns are used as they are stored (CR LF is kept). -/
theorem C71_test (help : Bytes) (load : Bytes → Except Bytes TestCase) (glob : List Bytes) {ws : List Bytes} {l : List (FlagDef × Bytes)} {files : List Bytes}
    (h : CommandLine testFlags ws l files) (hh : ¬ On l (b! "help")) {a : TestArgs} (h1 : a.testFiles = files)
    (h2 : Strings (b! "include") l a.includePatterns) (h3 : a.verbose = true ↔ On l (b! "verbose")) (h4 : a.quiet = true ↔ On l (b! "quiet"))
    (h5 : a.failOnly = true ↔ On l (b! "fail-only")) (h6 : a.trace = true ↔ On l (b! "trace")) :
    testMain help load glob ws = runTests load glob a := by
  have bool : ∀ {n} {x : Bool}, (∀ f ∈ testFlags, f.name = n → f.kind = .bool) → (x = true ↔ On l n) → boolSetting l n = x := fun {n x} hb hx => by
    have := (bools h hb).trans hx.symm
    cases hv : boolSetting l n <;> cases x <;> simp_all
  rw [testMain, parseWords_complete testFlags_good h]
  simp only
  rw [if_neg (fun hc => hh ((bools h (by decide)).1 hc)), strings_set h2]
  simp only
  rw [bool (by decide) h3, bool (by decide) h4, bool (by decide) h5, bool (by decide) h6, ← h1]

/-- C71. `texted test` runs no test if the command line is refused, and exits with status 1. -/
theorem C71_test_refused (help : Bytes) (load : Bytes → Except Bytes TestCase) (glob : List Bytes) (ws : List Bytes)
    (h : ∀ l files, ¬ CommandLine testFlags ws l files) : testMain help load glob ws = some ([], 1) := by
  rw [testMain]
  cases hp : parseWords testFlags ws with
  | error e => rfl
  | ok p => exact absurd ((parseWords_iff testFlags_good ws p.1 p.2).1 hp) (h _ _)

/-- C71. `texted doc`. -/
theorem C71_doc (help : Bytes) (title : Bytes → Bytes) (reg : Registry) {ws : List Bytes} {l : List (FlagDef × Bytes)} {args : List Bytes}
    (h : CommandLine docFlags ws l args) (hh : ¬ On l (b! "help")) {category : Bytes} {verbose : Bool} (hc : Last l (b! "category") [] category)
    (hv : verbose = true ↔ On l (b! "verbose")) (out : Except Bytes Bytes) :
    DocMain help title reg ws out ↔ RunDoc title reg args category verbose out := by
  have e : boolSetting l (b! "verbose") = verbose := by
    have := (bools (n := b! "verbose") h (by decide)).trans hv.symm
    cases hx : boolSetting l (b! "verbose") <;> cases verbose <;> simp_all
  rw [strSetting_iff] at hc
  rw [DocMain, parseWords_complete docFlags_good h]
  simp only
  rw [if_neg (fun hc => hh ((bools h (by decide)).1 hc)), hc, e]

omit [Ext] in
/-- Non-vacuity: lines for the other commands, and a refused one. -/
example : letI := litExt
    CommandLine parseFlags [b! "--output-format=json", b! "ignored"] [(⟨b! "output-format", none, .str⟩, b! "json")] [b! "ignored"] ∧
    CommandLine testFlags [b! "-qi", b! "goto,kill", b! "t.xml"] [(⟨b! "quiet", some 113, .bool⟩, b! "true"), (⟨b! "include", some 105, .slice⟩, b! "goto,kill")]
      [b! "t.xml"] ∧
    CommandLine docFlags [b! "-v", b! "--category", b! "search"] [(⟨b! "verbose", some 118, .bool⟩, b! "true"), (⟨b! "category", none, .str⟩, b! "search")] [] ∧
    (∀ l files, ¬ CommandLine parseFlags [b! "-o", b! "json"] l files) := by
  letI := litExt
  refine ⟨(parseWords_iff parseFlags_good _ _ _).1 (by decide +kernel), (parseWords_iff testFlags_good _ _ _).1 (by decide +kernel),
    (parseWords_iff docFlags_good _ _ _).1 (by decide +kernel), fun l files h => ?_⟩
  have := (parseWords_iff parseFlags_good _ _ _).2 h
  rw [show parseWords parseFlags [b! "-o", b! "json"] = .error (.unknownShort 111 (b! "o")) from by decide +kernel] at this
  cases this

end Texted
