import Verif.Props.Query
import Verif.Props.Search
/- C09 (what holds), C22–C24: what each command can and cannot change. -/
namespace Texted
variable [Ext]

/-- Unfold a built-in completely and look at every branch. -/
macro "branches" : tactic => `(tactic| (
  simp only [
    call_insert, call_goto_char, call_goto_line, call_search_forward, call_search_backward, call_re_search_forward,
    call_end_of_buffer, call_set_mark, call_mark, call_point, call_line_number_at_pos, call_replace_match,
    call_delete_region, call_buffer_substring, call_mark_word, call_replace_region, call_region_beginning,
    call_region_end, call_forward_char, call_length, call_substring, call_string_match, call_backward_char,
    call_beginning_of_buffer, call_beginning_of_line, call_end_of_line, call_buffer_size, call_point_max,
    call_point_min, call_current_column, call_upcase, call_downcase, call_capitalize, call_concat,
    call_set_mark_command, call_exchange_point_and_mark, call_mark_whole_buffer, call_delete_char,
    call_delete_backward_char, call_forward_word, call_backward_word, call_looking_at, call_looking_back,
    call_mark_line, call_delete_line, call_kill_line, call_kill_word, call_backward_kill_word,
    call_re_search_backward, call_replace_regexp_in_string,
    builtinInsert, builtinGotoChar, builtinGotoLine, builtinSearchForward, builtinSearchBackward, builtinReSearchForward,
    builtinEndOfBuffer, builtinSetMark, builtinMark, builtinPoint, builtinLineNumberAtPos, builtinReplaceMatch,
    builtinDeleteRegion, builtinBufferSubstring, builtinMarkWord, builtinReplaceRegion, builtinRegionBeginning,
    builtinRegionEnd, builtinForwardChar, builtinLength, builtinSubstring, builtinStringMatch, builtinBackwardChar,
    builtinBeginningOfBuffer, builtinBeginningOfLine, builtinEndOfLine, builtinBufferSize, builtinPointMax,
    builtinPointMin, builtinCurrentColumn, builtinUpcase, builtinDowncase, builtinCapitalize, builtinConcat,
    builtinSetMarkCommand, builtinExchangePointAndMark, builtinMarkWholeBuffer, builtinDeleteChar,
    builtinDeleteBackwardChar, builtinForwardWord, builtinBackwardWord, builtinLookingAt, builtinLookingBack,
    builtinMarkLine, builtinDeleteLine, builtinKillLine, builtinKillWord, builtinBackwardKillWord,
    builtinReSearchBackward, builtinReplaceRegexpInString,
    withCount, noArgs, oneStr, oneNum, spliceOr, substringCore, done, ret, fail, crash] <;>
  (repeat' split) <;> simp))

/-! ### C22 -/

/-- The functions that only ask. -/
def queryNames : List Bytes := [b! "point", b! "mark", b! "point-min", b! "point-max", b! "buffer-size",
  b! "buffer-substring", b! "line-number-at-pos", b! "current-column", b! "region-beginning", b! "region-end",
  b! "looking-at", b! "looking-back", b! "length", b! "substring", b! "concat", b! "upcase", b! "downcase",
  b! "capitalize", b! "string-match", b! "replace-regexp-in-string"]

/-- Query functions leave the whole buffer unchanged, on success and on failure, for all arguments and buffers. -/
theorem C22_queries_read_only (name : Bytes) (h : name ∈ queryNames) (args : List Value) (b : Buffer) :
    (call name args b).2 = b := by
  simp only [queryNames, List.mem_cons, List.not_mem_nil, or_false] at h
  rcases h with h | h | h | h | h | h | h | h | h | h | h | h | h | h | h | h | h | h | h | h <;> subst h <;> branches

example : b! "current-column" ∈ queryNames ∧
    call b! "current-column" [] (newBuffer b! "ab") = (.ok (numV 1), newBuffer b! "ab") := ⟨by decide, rfl⟩

/-! ### All functions -/

/-- The names of the 50 functions. -/
def allNames : List Bytes := builtinTable.map (·.1)

omit [Ext] in
theorem tableLookup_none (t : List (Bytes × Builtin)) (name : Bytes) (h : name ∉ t.map (·.1)) :
    tableLookup t name = none := by
  induction t with
  | nil => rfl
  | cons e t ih =>
    obtain ⟨n, f⟩ := e
    simp only [List.map_cons, List.mem_cons, not_or] at h
    simp only [tableLookup]
    rw [if_neg (fun he => h.1 he.symm), ih h.2]

/-- Any other name is an error that changes nothing. -/
theorem call_unknown (name : Bytes) (h : name ∉ allNames) (args : List Value) (b : Buffer) :
    call name args b = (.err (b! "undefined-function " ++ quote name), b) := by
  have : (defaultEnv name : Option Builtin) = none := tableLookup_none _ _ h
  simp [call, this]

/-- The 50 names, one by one. -/
macro "each_name " h:ident : tactic => `(tactic| (
  simp only [allNames, builtinTable, List.map_cons, List.map_nil, List.mem_cons, List.not_mem_nil, or_false] at $h:ident
  rcases $h:ident with h | h | h | h | h | h | h | h | h | h | h | h | h | h | h | h | h | h | h | h | h | h | h | h | h |
    h | h | h | h | h | h | h | h | h | h | h | h | h | h | h | h | h | h | h | h | h | h | h | h | h <;> subst h))

/-! ### C24 -/

/-- A command that returns an error leaves the whole buffer (text, point, mark, recorded match) as it was: for
every function name, known or not, every argument list and every buffer. -/
theorem C24_failure_changes_nothing (name : Bytes) (args : List Value) (b b' : Buffer) (e : Bytes)
    (h : call name args b = (.err e, b')) : b' = b := by
  have key : (call name args b).1 = .err e → (call name args b).2 = b := by
    by_cases hn : name ∈ allNames
    · each_name hn <;> branches
    · rw [call_unknown name hn]; simp
  rw [h] at key
  exact key rfl

example : call b! "search-forward" [.str b! "x"] { newBuffer b! "abc" with point := 2 } =
    (.err b! "search failed", { newBuffer b! "abc" with point := 2 }) := rfl

/-! ### C23 -/

/-- The only commands that can change the text. -/
def editNames : List Bytes := [b! "insert", b! "replace-match", b! "replace-region", b! "delete-char",
  b! "delete-backward-char", b! "delete-region", b! "delete-line", b! "kill-line", b! "kill-word", b! "backward-kill-word"]

/-- Every other command leaves the text byte-for-byte unchanged, whatever its arguments and the buffer. -/
theorem C23_text_unchanged (name : Bytes) (hn : name ∉ editNames) (args : List Value) (b : Buffer) :
    (call name args b).2.content = b.content := by
  by_cases h : name ∈ allNames
  · each_name h <;> first | (exfalso; revert hn; decide) | branches
  · rw [call_unknown name h]

/-- Each of the ten editing commands really can change the text (so the list is not too long). -/
theorem C23_editors_edit : ∀ name ∈ editNames, ∃ args b, (call name args b).1 = okEmpty ∧ (call name args b).2.content ≠ b.content := by
  simp only [editNames, List.forall_mem_cons, List.not_mem_nil, false_implies, implies_true, and_true]
  refine ⟨⟨[.str b! "x"], newBuffer [], rfl, ?_⟩, ⟨[.str b! "x"], (call b! "search-forward" [.str b! "b"] (newBuffer b! "abc")).2, rfl, ?_⟩,
    ⟨[.str b! "x"], { newBuffer b! "abc" with mark := 3 }, rfl, ?_⟩, ⟨[], newBuffer b! "abc", rfl, ?_⟩,
    ⟨[], { newBuffer b! "abc" with point := 3 }, rfl, ?_⟩, ⟨[], { newBuffer b! "abc" with point := 3 }, rfl, ?_⟩,
    ⟨[], newBuffer b! "abc", rfl, ?_⟩, ⟨[], newBuffer b! "abc", rfl, ?_⟩, ⟨[], newBuffer b! "abc", rfl, ?_⟩,
    ⟨[], { newBuffer b! "abc" with point := 3 }, rfl, ?_⟩⟩
  · exact show b! "x" ≠ [] by decide
  · exact show b! "axc" ≠ b! "abc" by decide
  · exact show b! "xc" ≠ b! "abc" by decide
  · exact show b! "bc" ≠ b! "abc" by decide
  · exact show b! "ac" ≠ b! "abc" by decide
  · exact show b! "c" ≠ b! "abc" by decide
  · exact show b! "" ≠ b! "abc" by decide
  · exact show b! "a" ≠ b! "abc" by decide
  · exact show b! "" ≠ b! "abc" by decide
  · exact show b! "" ≠ b! "abc" by decide

/-- The only commands that can change the mark. -/
def markNames : List Bytes := [b! "set-mark", b! "set-mark-command", b! "exchange-point-and-mark", b! "mark-whole-buffer",
  b! "mark-word", b! "mark-line"]

/-- Every other command leaves the mark alone. -/
theorem C23_mark_unchanged (name : Bytes) (hn : name ∉ markNames) (args : List Value) (b : Buffer) :
    (call name args b).2.mark = b.mark := by
  by_cases h : name ∈ allNames
  · each_name h <;> first | (exfalso; revert hn; decide) | (branches <;> simp [Buffer.insert]) 
  · rw [call_unknown name h]

/-- set-mark, then any commands that neither edit nor set the mark, then exchange-point-and-mark: point is back at
the remembered position (whatever happened in between, errors included). -/
theorem C50_return_to_mark (b : Buffer) (cmds : List (Bytes × List Value)) (h : ∀ c ∈ cmds, c.1 ∉ markNames ∧ c.1 ∉ editNames) :
    let b' := cmds.foldl (fun b c => (call c.1 c.2 b).2) (call b! "set-mark" [] b).2
    (call b! "exchange-point-and-mark" [] b').2.point = b.point ∧
      (call b! "exchange-point-and-mark" [] b').2.content = b.content := by
  have key : ∀ (cmds : List (Bytes × List Value)) (b0 : Buffer), (∀ c ∈ cmds, c.1 ∉ markNames ∧ c.1 ∉ editNames) →
      (cmds.foldl (fun b c => (call c.1 c.2 b).2) b0).mark = b0.mark ∧
      (cmds.foldl (fun b c => (call c.1 c.2 b).2) b0).content = b0.content := by
    intro cmds
    induction cmds with
    | nil => intro b0 _; exact ⟨rfl, rfl⟩
    | cons c cs ih =>
      intro b0 hc
      have h1 := ih (call c.1 c.2 b0).2 (fun c' hc' => hc c' (List.mem_cons_of_mem _ hc'))
      have h2 := hc c List.mem_cons_self
      simp only [List.foldl_cons]
      rw [h1.1, h1.2]
      exact ⟨C23_mark_unchanged _ h2.1 _ _, C23_text_unchanged _ h2.2 _ _⟩
  have := key cmds (call b! "set-mark" [] b).2 h
  exact ⟨this.1, this.2⟩

example : b! "forward-word" ∉ markNames ∧ b! "forward-word" ∉ editNames ∧ b! "search-forward" ∉ markNames := by decide

/-! ### C09 -/

/-- Only the four searches change the recorded match. -/
theorem C09_match_only_set_by_searches (name : Bytes) (hn : name ∉ searchNames) (args : List Value) (b : Buffer) :
    (call name args b).2.lastMatch = b.lastMatch ∧ (call name args b).2.lastStart = b.lastStart ∧
      (call name args b).2.lastEnd = b.lastEnd := by
  by_cases h : name ∈ allNames
  · each_name h <;> first | (exfalso; revert hn; decide) | (branches <;> simp [Buffer.insert])
  · rw [call_unknown name h]; simp

/-- What holds: a recorded match stays valid (and replace-match then replaces exactly the matched text, C08) as long
as only commands other than the ten editing commands are run after the search. With edits in
between this is false (`C09_false_insert_between`). -/
theorem C09_match_survives_motion (b : Buffer) (hv : MatchValid b) (name : Bytes) (hn : name ∉ editNames)
    (args : List Value) (hp : minInt < b.point) : MatchValid (call name args b).2 := by
  by_cases hs : name ∈ searchNames
  · cases hr : call name args b with
    | mk r b' =>
      cases r with
      | ok v =>
        have : ∃ p, args = [.str p] := by
          simp only [searchNames, List.mem_cons, List.not_mem_nil, or_false] at hs
          rcases hs with rfl | rfl | rfl | rfl <;>
          · simp only [call_search_forward, builtinSearchForward, call_search_backward, builtinSearchBackward,
              call_re_search_forward, builtinReSearchForward, call_re_search_backward, builtinReSearchBackward, oneStr] at hr
            split at hr
            · exact ⟨_, rfl⟩
            · simp [fail] at hr
            · simp [fail] at hr
        obtain ⟨p, rfl⟩ := this
        exact (C08_search_records_match name hs p b b' v hp hr).1
      | err e => rw [C24_failure_changes_nothing _ _ _ _ _ hr]; exact hv
      | panic =>
        have : (call name args b).1 = .panic → MatchValid (call name args b).2 := by
          have hb : (call name args b).1 = .panic → (call name args b).2 = b := by
            by_cases h : name ∈ allNames
            · each_name h <;> first | (exfalso; revert hs; decide) | branches
            · rw [call_unknown name h]; simp
          intro h; rw [hb h]; exact hv
        rw [hr] at this
        exact this rfl
  · have h1 := C09_match_only_set_by_searches name hs args b
    have h2 := C23_text_unchanged name hn args b
    unfold MatchValid at *
    rw [h1.1, h1.2.1, h1.2.2, h2]
    exact hv

end Texted
