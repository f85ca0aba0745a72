import Verif.Props.Recipes
import Verif.Props.Tools
import Verif.Props.NotJson
import Verif.Props.Truncate
import Verif.Props.Strings
/- C83: what the descriptions of the tools edit_file and texted_eval promise to the programs that use them. -/
namespace Texted
open Spec
section
variable [Ext]

/-! ### Printed numbers -/

/-- A position or a length is printed in decimal. -/
theorem toStr_nat (n : Nat) (h : n ≤ 9007199254740992) : (numV n).toStr = natDec n := by
  show numString (F64.ofInt n) = natDec n
  by_cases h0 : n = 0
  · subst h0; rfl
  · obtain ⟨m, j, hmj, hodd⟩ := F64.exists_odd n h0
    have hj : j ≤ 53 := by
      apply Decidable.byContradiction
      intro hc
      have : 2 ^ 54 ≤ 2 ^ j := Nat.pow_le_pow_right (by omega) (by omega)
      have : 2 ^ j ≤ m * 2 ^ j := Nat.le_mul_of_pos_left _ (by omega)
      omega
    have hm : m < 9007199254740992 := by
      have h1 : m ≤ m * 2 ^ j := Nat.le_mul_of_pos_right _ (Nat.two_pow_pos _)
      have h2 : 2 ≤ 2 ^ j ∨ j = 0 := by
        cases j with
        | zero => right; rfl
        | succ j => left; rw [Nat.pow_succ]; have := Nat.two_pow_pos j; omega
      rcases h2 with h2 | rfl
      · have : m * 2 ≤ m * 2 ^ j := Nat.mul_le_mul_left _ h2
        omega
      · simp at hmj; omega
    rw [numString, F64.toInt_ofInt n (by omega), F64.ofInt_pow n m j (by simpa using hmj) hodd hm (by omega)]
    rw [if_pos (by simp [F64.goEq]), F64.fmtF0]
    simp [hmj]

/-! ### Rehearsing with texted_eval -/

omit [Ext] in
theorem report_edited (f : Bytes) : editReport [⟨f, none⟩] 1 = b! "All files edited successfully after 1 iterations:\n✓ Successfully edited " ++ f ++ b! "\n" := by
  simp [editReport, reportLines, successLine, EditResult.success, show natDec 1 = b! "1" from rfl]
  rfl

omit [Ext] in
theorem report_failed (f e : Bytes) :
    editReport [⟨f, some e⟩] 1 = b! "Completed with errors after 1 iterations:\n✗ Failed to edit " ++ f ++ b! ": " ++ e ++ b! "\n" := by
  simp [editReport, reportLines, failureLine, EditResult.success, show natDec 1 = b! "1" from rfl]
  rfl

/-- **C83**: rehearsing. When nothing goes wrong with the file, edit_file turns the contents `c` of a file into `t` exactly if texted_eval answers `t` for
the input `c` and the same script; it says so; and it leaves the file alone and reports the same error exactly if texted_eval answers with an error. -/
theorem C83_rehearsal (missing : Bytes → Bytes) (fuel : Nat) (f script c : Bytes) (w w' : World) (hc : w.files f = some c) (res : ToolResult) :
    let answer := fun r => Ends (textedEvalHandler { input := .ok c, script := .ok script }) w r w
    let edit := runOk missing (editFileHandler fuel { script := .ok script, files := .ok [f], loopUntilError := false }) w
    (edit = (some (some res), w') ↔
      (∃ t, answer (.text t) ∧ w' = w.put f t ∧ res = .text (b! "All files edited successfully after 1 iterations:\n✓ Successfully edited " ++ f ++ b! "\n")) ∨
      (∃ e, answer (.error (b! "script execution failed: " ++ e)) ∧ w' = w ∧
        res = .text (b! "Completed with errors after 1 iterations:\n✗ Failed to edit " ++ f ++ b! ": " ++ e ++ b! "\n"))) ∧
    (edit = (none, w) ↔ ∀ r, ¬ answer r) := by
  intro answer edit
  have he : edit = match executeScript c script with
      | .ok t => (some (some (.text (b! "All files edited successfully after 1 iterations:\n✓ Successfully edited " ++ f ++ b! "\n"))), w.put f t)
      | .err e => (some (some (.text (b! "Completed with errors after 1 iterations:\n✗ Failed to edit " ++ f ++ b! ": " ++ e ++ b! "\n"))), w)
      | .panic => (none, w) := by
    show runOk missing (editFileHandler fuel { script := .ok script, files := .ok [f], loopUntilError := false }) w = _
    simp only [editFileHandler, List.isEmpty_cons, Bool.false_eq_true, if_false, runOk_bind, round_one missing f script c w hc]
    cases executeScript c script with
    | ok t => show (some (some (ToolResult.text (editReport [⟨f, none⟩] 1))), w.put f t) = _; rw [report_edited]
    | err e => show (some (some (ToolResult.text (editReport [⟨f, some e⟩] 1))), w) = _; rw [report_failed]
    | panic => rfl
  have ha : ∀ t, answer (.text t) ↔ executeScript c script = .ok t := fun t => (C46_buffer c script t w w).trans (by simp)
  have hb : ∀ m, answer (.error m) ↔ ∃ e, executeScript c script = .err e ∧ m = b! "script execution failed: " ++ e :=
    fun m => (C46_buffer_error c script m w w).trans (by simp)
  rw [he]
  cases hx : executeScript c script with
  | ok t =>
    simp only [ha, hb, hx]
    refine ⟨⟨fun h => ?_, fun h => ?_⟩, by simp, fun h => ?_⟩
    · simp only [Prod.mk.injEq, Option.some.injEq] at h
      exact .inl ⟨t, rfl, h.2.symm, h.1.symm⟩
    · rcases h with ⟨t', h1, rfl, rfl⟩ | ⟨e, ⟨e', h1, _⟩, _⟩
      · cases h1; rfl
      · cases h1
    · exact absurd ((ha t).2 hx) (h _)
  | err e =>
    simp only [ha, hb, hx]
    refine ⟨⟨fun h => ?_, fun h => ?_⟩, by simp, fun h => ?_⟩
    · simp only [Prod.mk.injEq, Option.some.injEq] at h
      exact .inr ⟨e, ⟨e, rfl, rfl⟩, h.2.symm, h.1.symm⟩
    · rcases h with ⟨t', h1, _⟩ | ⟨e', ⟨e'', h1, h2⟩, rfl, rfl⟩
      · cases h1
      · cases h1
        have := List.append_cancel_left h2
        subst this
        rfl
    · exact absurd ((hb _).2 ⟨e, hx, rfl⟩) (h _)
  | panic =>
    simp only [ha, hb, hx]
    refine ⟨by simp, fun _ r => ?_, by simp⟩
    cases r with
    | text t => rw [ha, hx]; simp
    | error m => rw [hb, hx]; simp

/-! ### Workflows of edit_file -/

/-- Going to the end of the line. -/
theorem end_on (b : Buffer) {pre r : Bytes} (hc : b.content = pre ++ r) (hp : b.point = pre.length + 1) :
    ∃ z post, r = z ++ post ∧ nl ∉ z ∧ (post = [] ∨ post.head? = some nl) ∧
      call (b! "end-of-line") [] b = (okEmpty, { b with point := pre.length + z.length + 1 }) := by
  have hl := congrArg List.length hc
  simp only [List.length_append] at hl
  obtain ⟨k, h1, h2, h3, h4, h5⟩ := C13_end_of_line b ⟨by omega, by omega⟩
  rw [show (b.point - 1).toNat = pre.length by omega] at h2 h5
  have hr : ∀ i, r[i]? = b.content[pre.length + i]? := fun i => by
    rw [hc, List.getElem?_append_right (by omega)]; congr 1; omega
  refine ⟨r.take (k - pre.length), r.drop (k - pre.length), (List.take_append_drop _ _).symm, ?_, ?_, ?_⟩
  · intro hm
    obtain ⟨i, hi⟩ := List.getElem?_of_mem hm
    have hlt := (List.getElem?_eq_some_iff.1 hi).1
    rw [List.length_take] at hlt
    rw [List.getElem?_take, if_pos (by omega), hr] at hi
    exact h5 _ (by omega) (by omega) hi
  · rcases h4 with h4 | h4
    · left; exact List.drop_eq_nil_of_le (by omega)
    · right
      rw [List.head?_eq_getElem?, List.getElem?_drop, hr, show pre.length + (k - pre.length + 0) = k by omega]
      exact h4
  · rw [h1, List.length_take]
    congr 3
    omega

section
variable {cs : List Char} (c : Bytes)

/-- **C83**: `search-forward OLD; beginning-of-line; set-mark; end-of-line; replace-region NEW` replaces the line in which OLD first occurs, without its
line end, by NEW. -/
theorem C83_replace_line {old new : Bytes} (hlen : (encodeAll cs).length < 65536) (hne : old ≠ []) (hnl : nl ∉ old)
    (h : ScriptWritten cs [.list [.sym (b! "search-forward"), .str old], .list [.sym (b! "beginning-of-line")], .list [.sym (b! "set-mark")],
      .list [.sym (b! "end-of-line")], .list [.sym (b! "replace-region"), .str new]]) :
    (∀ u v, FirstOccurrence old c u v → ∃ pre a z post, u = pre ++ a ∧ v = z ++ post ∧ nl ∉ a ∧ nl ∉ z ∧ (pre = [] ∨ pre.getLast? = some nl) ∧
      (post = [] ∨ post.head? = some nl) ∧ executeScriptWithFormat c (encodeAll cs) (b! "shell") = .ok (pre ++ new ++ post)) ∧
    ((∀ u v, c ≠ u ++ old ++ v) → ∃ e, executeScriptWithFormat c (encodeAll cs) (b! "shell") = .err (b! "script execution failed: search failed" ++ e)) := by
  refine ⟨fun u v ho => ?_, recipe_fails c hlen h⟩
  have h1 := search_first hne ho
  obtain ⟨pre, a, rfl, ha, hpre, h2⟩ := line_on ((newBuffer c).matched u.length old) (u := u) (old := old) (v := v) ho.1 rfl hne hnl
  have h3 := (C65_effects { (newBuffer c).matched (pre ++ a).length old with point := (pre.length : Int) + 1 } (F64.ofInt 0)).2.2.2.1
  have hcc : c = pre ++ (a ++ old ++ v) := by rw [ho.1]; simp
  obtain ⟨z, post, hz, hzn, hpost, h4⟩ := end_on { (newBuffer c).matched (pre ++ a).length old with point := (pre.length : Int) + 1, mark := (pre.length : Int) + 1 }
    (pre := pre) (r := a ++ old ++ v) hcc rfl
  obtain ⟨z', rfl, hv⟩ : ∃ z', z = a ++ old ++ z' ∧ v = z' ++ post := by
    have hle : (a ++ old).length ≤ z.length := by
      refine Classical.byContradiction fun hlt => ?_
      obtain ⟨i, hi, hp⟩ := take_of_prefix hz (by omega)
      have hi0 : i ≠ [] := by rintro rfl; rw [List.append_nil] at hi; rw [hi] at hlt; exact hlt (Nat.le_refl _)
      have hmem : nl ∈ a ++ old := by
        rcases hpost with hpost | hpost
        · rw [hpost] at hp; exact absurd (List.append_eq_nil_iff.1 hp.symm).1 hi0
        · rw [hi]
          cases i with
          | nil => exact absurd rfl hi0
          | cons y i =>
            rw [hp] at hpost
            simp only [List.cons_append, List.head?_cons, Option.some.injEq] at hpost
            rw [hpost]; simp
      rcases List.mem_append.1 hmem with hm | hm
      · exact ha hm
      · exact hnl hm
    obtain ⟨z', h5, h6⟩ := take_of_prefix hz.symm hle
    exact ⟨z', h5, h6⟩
  have hmid : a ++ old ++ z' ≠ [] := by simp [hne]
  have h5 := replace_on { (newBuffer c).matched (pre ++ a).length old with point := (pre.length : Int) + (a ++ old ++ z').length + 1, mark := (pre.length : Int) + 1 }
    (pre := pre) (mid := a ++ old ++ z') (post := post) new (by show c = _; rw [hcc, hz]; simp) rfl rfl hmid
  refine ⟨pre, a, z', post, rfl, hv, ha, fun hm => hzn (by simp [hm]), hpre, hpost, ?_⟩
  exact execute_steps h hlen (.cons rfl (by simp [isConstant]) h1 (.cons rfl (by simp) h2 (.cons rfl (by simp) h3 (.cons rfl (by simp) h4
    (.cons rfl (by simp [isConstant]) h5 (.nil _)))))) rfl

/-- **C83**: `search-forward A; set-mark; search-forward Z; delete-region` deletes what follows the first A, up to and with the first Z behind it; A stays. -/
theorem C83_delete_between {a z : Bytes} (hlen : (encodeAll cs).length < 65536) (ha : a ≠ []) (hz : z ≠ [])
    (h : ScriptWritten cs [.list [.sym (b! "search-forward"), .str a], .list [.sym (b! "set-mark")], .list [.sym (b! "search-forward"), .str z],
      .list [.sym (b! "delete-region")]]) :
    (∀ u v s t, FirstOccurrence a c u v → FirstOccurrence z v s t → executeScriptWithFormat c (encodeAll cs) (b! "shell") = .ok (u ++ a ++ t)) ∧
    ((∀ u v, c ≠ u ++ a ++ v) → ∃ e, executeScriptWithFormat c (encodeAll cs) (b! "shell") = .err (b! "script execution failed: search failed" ++ e)) ∧
    (∀ u v, FirstOccurrence a c u v → (∀ s t, v ≠ s ++ z ++ t) →
      ∃ e, executeScriptWithFormat c (encodeAll cs) (b! "shell") = .err (b! "script execution failed: search failed" ++ e)) := by
  refine ⟨fun u v s t ho hs => ?_, recipe_fails c hlen h, fun u v ho hs => ?_⟩
  · have h1 := search_first ha ho
    have h2 := (C65_effects ((newBuffer c).matched u.length a) (F64.ofInt 0)).2.2.2.1
    have h3 := search_on { (newBuffer c).matched u.length a with mark := ((newBuffer c).matched u.length a).point } (pre := u ++ a) (text := v)
      (by show c = _; rw [ho.1]) (by show (u.length : Int) + a.length + 1 = _; rw [List.length_append]; omega) hz hs
    obtain ⟨p, h4⟩ := delete_on ({ (newBuffer c).matched u.length a with mark := ((newBuffer c).matched u.length a).point }.matched ((u ++ a).length + s.length) z)
      (pre := u ++ a) (mid := s ++ z) (post := t) (by show c = _; rw [ho.1, hs.1]; simp)
      (.inl ⟨by show (u.length : Int) + a.length + 1 = _; rw [List.length_append]; omega,
        by show (((u ++ a).length + s.length : Nat) : Int) + z.length + 1 = _; simp only [List.length_append]; omega⟩)
    exact execute_steps h hlen (.cons rfl (by simp [isConstant]) h1 (.cons rfl (by simp) h2 (.cons rfl (by simp [isConstant]) h3
      (.cons rfl (by simp) h4 (.nil _))))) rfl
  · have h1 := search_first ha ho
    have h2 := (C65_effects ((newBuffer c).matched u.length a) (F64.ofInt 0)).2.2.2.1
    have h3 := search_off { (newBuffer c).matched u.length a with mark := ((newBuffer c).matched u.length a).point } (pre := u ++ a) (text := v)
      (by show c = _; rw [ho.1]) (by show (u.length : Int) + a.length + 1 = _; rw [List.length_append]; omega) hs
    obtain ⟨e, he⟩ := execute_stops h hlen (.cons rfl (by simp [isConstant]) h1 (.cons rfl (by simp) h2 (.nil _))) (f := b! "search-forward") rfl
      (by simp [isConstant]) h3 rfl
    exact ⟨e, by rw [he]; rfl⟩

/-- **C83**: `search-backward PATTERN`, named as one of the ten essential functions, can never be the first command of a script: it always fails there,
whatever the text, because the script starts at the beginning of the text. -/
theorem C83_search_backward_first {p : Bytes} {rest : List Value} (hlen : (encodeAll cs).length < 65536) (hne : p ≠ [])
    (h : ScriptWritten cs (.list [.sym (b! "search-backward"), .str p] :: rest)) :
    ∃ e, executeScriptWithFormat c (encodeAll cs) (b! "shell") = .err (b! "script execution failed: search failed" ++ e) := by
  have hpos := List.length_pos_iff.2 hne
  have h1 := C07_search_backward_failure (newBuffer c) p (show minInt < 1 by decide) (.inr fun j hj => by
    have : (newBuffer c).point = 1 := rfl
    omega)
  obtain ⟨e, he⟩ := execute_fails h hlen rfl (by simp [isConstant]) h1
  exact ⟨e, by rw [he]; rfl⟩

/-- **C83**: a malformed regular expression is not searched for literally: `re-search-forward P` fails on every text that is not empty, even if P occurs
in it. -/
theorem C83_malformed_regexp {p m : Bytes} {rest : List Value} (hlen : (encodeAll cs).length < 65536) (hc : c ≠ []) (hm : Ext.compile p = .error m)
    (h : ScriptWritten cs (.list [.sym (b! "re-search-forward"), .str p] :: rest)) :
    ∃ e, executeScriptWithFormat c (encodeAll cs) (b! "shell") = .err (b! "script execution failed: invalid regexp: " ++ m ++ e) := by
  have hr : InRange (newBuffer c) := by constructor <;> simp [newBuffer]
  have h1 := (C66_invalid_pattern (newBuffer c) p m [] [] hm hr).1 (by simpa [Buffer.after, newBuffer] using hc)
  obtain ⟨e, he⟩ := execute_fails h hlen rfl (by simp [isConstant]) h1
  exact ⟨e, by rw [he]; simp only [List.append_assoc]; rfl⟩

/-! ### Answers of texted_eval in expression mode -/

/-- The answer is the value of the last command. -/
theorem expression_steps {p : List Value} (h : ScriptWritten cs p) (hlen : (encodeAll cs).length < 65536)
    {cmds : List (Bytes × List Value)} {b b1 : Buffer} (hs : Performs cmds (newBuffer c) b) {f : Bytes} {as : List Value} {v : Value}
    (hf : (defaultEnv f).isSome = true) (ha : ∀ v ∈ as, isConstant v) (hc : call f as b = (.ok v, b1))
    (hp : cmds.map commandOf ++ [commandOf (f, as)] = p) (w : World) :
    Ends (textedEvalHandler { input := .ok c, script := .ok (encodeAll cs), output := b! "expression" }) w (.text v.toStr) w := by
  subst hp
  obtain ⟨v', hv⟩ := performs_loop hs (cmds.map commandOf ++ [commandOf (f, as)]) [commandOf (f, as)] 0 (.str [])
  refine (C46_expression c (encodeAll cs) v.toStr w w).2 ⟨_, v, b1, C79_script h hlen, ?_, rfl, rfl⟩
  rw [eval, hv, commandOf, evalLoopNoTrace, evalExpr_command f hf as ha, hc]
  rfl

/-- **C83**: `search-forward OLD; point` answers with the position *behind* the first OLD, not with the position where it was found. -/
theorem C83_position {old : Bytes} (hlen : (encodeAll cs).length < 65536) (hne : old ≠ []) (hc : c.length < 9007199254740992)
    (h : ScriptWritten cs [.list [.sym (b! "search-forward"), .str old], .list [.sym (b! "point")]]) (u v : Bytes) (ho : FirstOccurrence old c u v) (w : World) :
    Ends (textedEvalHandler { input := .ok c, script := .ok (encodeAll cs), output := b! "expression" }) w (.text (natDec (u.length + old.length + 1))) w := by
  have h1 := search_first hne ho
  have hl := congrArg List.length ho.1
  simp only [List.length_append] at hl
  have h2 := expression_steps c h hlen (.cons rfl (by simp [isConstant]) h1 (.nil _)) (f := b! "point") (as := []) (v := numV ((u.length + old.length + 1 : Nat) : Int)) rfl (by simp)
    (b1 := (newBuffer c).matched u.length old) rfl rfl w
  rwa [toStr_nat _ (by omega)] at h2

/-- **C83**: `upcase TEXT`, `downcase TEXT` answer with the literal of TEXT in the other case, `concat TEXT1 TEXT2` with the literal of both together, in
double quotes. -/
theorem C83_strings {s t : Bytes} (hlen : (encodeAll cs).length < 65536) (w : World) :
    (ScriptWritten cs [.list [.sym (b! "upcase"), .str s]] → Ascii s →
      Ends (textedEvalHandler { input := .ok c, script := .ok (encodeAll cs), output := b! "expression" }) w (.text (quote (s.map asciiUpper))) w) ∧
    (ScriptWritten cs [.list [.sym (b! "downcase"), .str s]] → Ascii s →
      Ends (textedEvalHandler { input := .ok c, script := .ok (encodeAll cs), output := b! "expression" }) w (.text (quote (s.map asciiLower))) w) ∧
    (ScriptWritten cs [.list [.sym (b! "concat"), .str s, .str t]] →
      Ends (textedEvalHandler { input := .ok c, script := .ok (encodeAll cs), output := b! "expression" }) w (.text (quote (s ++ t))) w) := by
  refine ⟨fun h ha => ?_, fun h ha => ?_, fun h => ?_⟩
  · exact expression_steps c h hlen (.nil _) (f := b! "upcase") rfl (by simp [isConstant]) (C47_upcase_ascii s ha (newBuffer c)) rfl w
  · exact expression_steps c h hlen (.nil _) (f := b! "downcase") rfl (by simp [isConstant]) (C47_downcase_ascii s ha (newBuffer c)) rfl w
  · refine expression_steps c h hlen (.nil _) (f := b! "concat") (v := .str (s ++ t)) (b1 := newBuffer c) rfl (by simp [isConstant]) ?_ rfl w
    simp [call_concat, builtinConcat, concatLoop, ret]

/-- **C83**: the script given for text analysis counts the bytes of the input. -/
theorem C83_length (hc : c.length < 9007199254740992) (w : World) :
    Ends (textedEvalHandler ⟨.ok c, .ok (b! "mark-whole-buffer; length (buffer-substring (region-beginning) (region-end))"), b! "expression"⟩) w (.text (natDec c.length)) w := by
  have hp : parseString (b! "mark-whole-buffer; length (buffer-substring (region-beginning) (region-end))") =
      .ok [.list [.sym (b! "mark-whole-buffer")], .list [.sym (b! "length"), .list [.sym (b! "buffer-substring"), .list [.sym (b! "region-beginning")],
        .list [.sym (b! "region-end")]]]] := by decide +kernel
  have h5 := (C65_region_is_whole_buffer (newBuffer c) hc).2.2.2.2
  have e0 : evalExpr defaultEnv (.list [.sym (b! "mark-whole-buffer")]) (newBuffer c) = call (b! "mark-whole-buffer") [] (newBuffer c) :=
    evalExpr_command _ rfl [] (by simp) _
  have hm : (call (b! "mark-whole-buffer") [] (newBuffer c)).1 = okEmpty := rfl
  rcases hB : call (b! "mark-whole-buffer") [] (newBuffer c) with ⟨r0, B⟩
  rw [hB] at h5 hm e0
  simp only at hm h5
  subst hm
  have e1 : evalExpr defaultEnv (.list [.sym (b! "buffer-substring"), .list [.sym (b! "region-beginning")], .list [.sym (b! "region-end")]]) B = (.ok (.str c), B) := by
    rw [eval, evalLoopNoTrace] at h5
    rcases hr : evalExpr defaultEnv (.list [.sym (b! "buffer-substring"), .list [.sym (b! "region-beginning")], .list [.sym (b! "region-end")]]) B with ⟨r, b'⟩
    rw [hr] at h5
    cases r with
    | ok v => simp only [evalLoopNoTrace, Prod.mk.injEq, Res.ok.injEq] at h5; rw [h5.1, h5.2]; rfl
    | err e => cases h5
    | panic => cases h5
  have e2 : evalExpr defaultEnv (.list [.sym (b! "length"), .list [.sym (b! "buffer-substring"), .list [.sym (b! "region-beginning")], .list [.sym (b! "region-end")]]]) B =
      (.ok (numV c.length), B) := by
    rw [evalExpr]
    rw [show defaultEnv (b! "length") = some builtinLength from rfl]
    simp only [evalArgs, e1]
    rfl
  rw [← toStr_nat c.length (by omega)]
  refine (C46_expression c _ _ w w).2 ⟨_, numV c.length, B, hp, ?_, rfl, rfl⟩
  rw [eval, evalLoopNoTrace, e0]
  simp only [okEmpty]
  rw [evalLoopNoTrace, e2]
  rfl

end

/-- The answer of texted_eval in expression mode (the handler does nothing but answer). -/
def evalAnswer (input script : Bytes) : Option ToolResult :=
  match textedEvalHandler ⟨.ok input, .ok script, b! "expression"⟩ with
  | .ret r => some r
  | _ => none

end

/-! ### Cases, and promises that are not kept -/

/-- A script of the description of edit_file. -/
example : ScriptWritten "search-forward \"old_func\"; beginning-of-line; set-mark; end-of-line; replace-region \"new_func()\"".toList
    [.list [.sym (b! "search-forward"), .str (b! "old_func")], .list [.sym (b! "beginning-of-line")], .list [.sym (b! "set-mark")],
      .list [.sym (b! "end-of-line")], .list [.sym (b! "replace-region"), .str (b! "new_func()")]] := by
  have h1 := CommandWritten.mk (name := "search-forward".toList) (by decide) (by unfold nameChar; decide) (not_number (by decide))
    (.str (n := 0) (plain_literal (cs := "old_func".toList) (by unfold PlainChar; decide)) .none)
  have h2 := CommandWritten.mk (name := "beginning-of-line".toList) (by decide) (by unfold nameChar; decide) (not_number (by decide)) .none
  have h3 := CommandWritten.mk (name := "set-mark".toList) (by decide) (by unfold nameChar; decide) (not_number (by decide)) .none
  have h4 := CommandWritten.mk (name := "end-of-line".toList) (by decide) (by unfold nameChar; decide) (not_number (by decide)) .none
  have h5 := CommandWritten.mk (name := "replace-region".toList) (by decide) (by unfold nameChar; decide) (not_number (by decide))
    (.str (n := 0) (plain_literal (cs := "new_func()".toList) (by unfold PlainChar; decide)) .none)
  exact .next h1 (.inl rfl) (.blank (.next h2 (.inl rfl) (.blank (.next h3 (.inl rfl) (.blank (.next h4 (.inl rfl) (.blank (.last h5))))))))

example :
    @executeScript litExt (b! "a\n  old_func(1) // x\nb") (b! "search-forward \"old_func\"; beginning-of-line; set-mark; end-of-line; replace-region \"new_func()\"") =
      .ok (b! "a\nnew_func()\nb") ∧
    @executeScript litExt (b! "a start b end c") (b! "search-forward \"start\"; set-mark; search-forward \"end\"; delete-region") = .ok (b! "a start c") ∧
    @executeScript litExt (b! "import x") (b! "search-backward \"import\"") =
      .err (b! "script execution failed: search failed (at instruction 0: (search-backward \"import\"), point=1, mark=1)") :=
  ⟨by decide +kernel, by decide +kernel, by decide +kernel⟩

/-- "search-forward "world"; point … returns the position where "world" was found": it returns 12, and `world` is at 7. -/
theorem C83_false_position : @evalAnswer litExt (b! "hello world") (b! "search-forward \"world\"; point") = some (.text (b! "12")) := by decide +kernel

/-- The example of value extraction fails: there are no functions match-beginning and match-end. -/
theorem C83_false_value_extraction :
    @evalAnswer reExt (b! "The answer is 42") (b! "re-search-forward \"\\\\d+\"; buffer-substring (match-beginning) (match-end)") =
      some (.error (b! "script execution failed: undefined-function \"match-beginning\" (at instruction 1: (buffer-substring (match-beginning) (match-end)), point=17, mark=1)")) := by
  decide +kernel

/-- The example of finding a line number fails: line-number-at-pos takes no arguments. -/
theorem C83_false_position_finding :
    @evalAnswer litExt (b! "line1\nline2\nline3") (b! "search-forward \"line2\"; line-number-at-pos (point)") =
      some (.error (b! "script execution failed: line-number-at-pos expects 0 arguments, got 1 (at instruction 1: (line-number-at-pos (point)), point=12, mark=1)")) ∧
    @evalAnswer litExt (b! "line1\nline2\nline3") (b! "search-forward \"line2\"; line-number-at-pos") = some (.text (b! "2")) :=
  ⟨by decide +kernel, by decide +kernel⟩

/-- The example of a regular expression is no script: in a string literal, backslashes must be doubled. -/
theorem C83_false_regexp_literal : @executeScript reExt (b! "func f") (b! "re-search-forward \"func\\s+\\w+\"") = 
    .err (b! "parsing script: invalid string literal \"func\\s+\\w+\": invalid syntax") := by decide +kernel

/-! ### Categories -/

/-- The documentation registered by the program: names and categories are those of the table. -/
def ProgramDocs (calls : List FunctionDoc) : Prop :=
  ∀ n c, (∃ d, Registered calls d ∧ d.name = n ∧ d.category = c) ↔ ∃ d ∈ docTable, d.name = n ∧ d.category = c

theorem sorted_unique {l l' : List Bytes} (h : l.Pairwise (· < ·)) (h' : l'.Pairwise (· < ·)) (hm : ∀ x, x ∈ l ↔ x ∈ l') : l = l' := by
  have nd : ∀ {l : List Bytes}, l.Pairwise (· < ·) → l.Nodup := fun hl => hl.imp fun h e => by rw [e] at h; exact List.lt_irrefl _ h
  refine List.Perm.eq_of_pairwise (le := fun a b => a < b) (fun a b _ _ h1 h2 => absurd (List.lt_trans h1 h2) (List.lt_irrefl _)) h h' ?_
  exact (List.perm_ext_iff_of_nodup (nd h) (nd h')).2 hm

/-- **C83**: the categories there are. The description of texted_doc names six of them; `mark` and `position` are missing there. -/
theorem C83_categories (calls : List FunctionDoc) (h : ProgramDocs calls) (out : List Bytes) :
    Categories (registryOf calls) out ↔ out = [b! "buffer", b! "editing", b! "mark", b! "movement", b! "position", b! "region", b! "search", b! "string"] := by
  have hmem : ∀ c, (c ≠ [] ∧ ∃ d, Registered calls d ∧ d.category = c) ↔
      c ∈ [b! "buffer", b! "editing", b! "mark", b! "movement", b! "position", b! "region", b! "search", b! "string"] := by
    intro c
    have h1 : (∃ d, Registered calls d ∧ d.category = c) ↔ c ∈ docTable.map (·.category) := by
      rw [List.mem_map]
      constructor
      · rintro ⟨d, hd, rfl⟩
        obtain ⟨e, he, _, hc⟩ := (h d.name d.category).1 ⟨d, hd, rfl, rfl⟩
        exact ⟨e, he, hc⟩
      · rintro ⟨e, he, rfl⟩
        obtain ⟨d, hd, _, hc⟩ := (h e.name e.category).2 ⟨e, he, rfl, rfl⟩
        exact ⟨d, hd, hc⟩
    have h2 : ∀ x ∈ docTable.map (·.category), x ≠ [] ∧
        x ∈ [b! "buffer", b! "editing", b! "mark", b! "movement", b! "position", b! "region", b! "search", b! "string"] := by decide
    have h3 : ∀ x ∈ [b! "buffer", b! "editing", b! "mark", b! "movement", b! "position", b! "region", b! "search", b! "string"],
        x ∈ docTable.map (·.category) := by decide
    rw [h1]
    exact ⟨fun hc => (h2 c hc.2).2, fun hc => ⟨(h2 c (h3 c hc)).1, h3 c hc⟩⟩
  rw [C54_categories]
  simp only [hmem]
  refine ⟨fun ⟨h1, h2⟩ => sorted_unique h1 (by decide) h2, ?_⟩
  rintro rfl
  exact ⟨by decide, fun _ => Iff.rfl⟩

/-- The table itself, registered without prose. -/
example : ProgramDocs (docTable.map fun d => bareDoc d.name d.category) := by
  have h : registryOf (docTable.map fun d => bareDoc d.name d.category) = (docTable.map fun d => bareDoc d.name d.category).reverse := by decide +kernel
  intro n c
  simp only [← C54_registry, h, List.mem_reverse, List.mem_map]
  constructor
  · rintro ⟨_, ⟨e, he, rfl⟩, rfl, rfl⟩; exact ⟨e, he, rfl, rfl⟩
  · rintro ⟨e, he, rfl, rfl⟩; exact ⟨_, ⟨e, he, rfl⟩, rfl, rfl⟩

end Texted
