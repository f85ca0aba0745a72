import Verif.Props.Written
import Verif.Props.Search
import Verif.Props.Edit
import Verif.Props.Motion
import Verif.Props.Kill
import Verif.Props.Files
import Verif.Props.Evaluator
import Verif.Props.Marks
/- C79: what everyday scripts do to a text. -/
namespace Texted
open Spec
variable [Ext]

/-- A string or a number. -/
def isConstant : Value → Prop
  | .str _ => True
  | .num _ => True
  | _ => False

theorem evalArgs_constants (args : List Value) (h : ∀ v ∈ args, isConstant v) (b : Buffer) : evalArgs defaultEnv args b = (.ok args, b) := by
  induction args with
  | nil => rfl
  | cons a args ih =>
    have ha := h a (by simp)
    rw [evalArgs]
    cases a with
    | str s => rw [evalExpr]; simp only [ih fun v hv => h v (by simp [hv])]
    | num x => rw [evalExpr]; simp only [ih fun v hv => h v (by simp [hv])]
    | sym s => exact absurd ha id
    | list l => exact absurd ha id

/-- Evaluating one command whose arguments are constants. -/
theorem evalExpr_command (f : Bytes) (hf : (defaultEnv f).isSome = true) (args : List Value) (h : ∀ v ∈ args, isConstant v) (b : Buffer) :
    evalExpr defaultEnv (.list (.sym f :: args)) b = call f args b := by
  rw [evalExpr, call]
  rw [evalArgs_constants args h]
  cases hd : defaultEnv f with
  | none => simp [hd] at hf
  | some fn => rfl

/-- What a script of this program does: it runs the program on the text. -/
theorem execute_written {cs : List Char} {p : List Value} (h : ScriptWritten cs p) (hlen : (encodeAll cs).length < 65536) (c : Bytes) :
    executeScriptWithFormat c (encodeAll cs) (b! "shell") =
      match eval defaultEnv p (newBuffer c) with
      | (.ok _, b) => .ok b.content
      | (.err e, _) => .err (b! "script execution failed: " ++ e.message)
      | (.panic, _) => .panic := by
  rw [executeScriptWithFormat, if_pos (by decide), parseScript, if_neg (by decide), C79_script h hlen, executeParsed, evalOn]
  rcases eval defaultEnv p (newBuffer c) with ⟨r, b⟩
  cases r <;> rfl

/-- A script of one command. -/
theorem execute_one {cs : List Char} {f : Bytes} {as : List Value} (h : ScriptWritten cs [.list (.sym f :: as)]) (hlen : (encodeAll cs).length < 65536)
    (hf : (defaultEnv f).isSome = true) (ha : ∀ v ∈ as, isConstant v) {c : Bytes} {v : Value} {b : Buffer}
    (h1 : call f as (newBuffer c) = (.ok v, b)) : executeScriptWithFormat c (encodeAll cs) (b! "shell") = .ok b.content := by
  rw [execute_written h hlen, eval, evalLoopNoTrace, evalExpr_command f hf as ha, h1]
  rfl

/-- A script of two commands that both succeed. -/
theorem execute_two {cs : List Char} {f g : Bytes} {as bs : List Value} (h : ScriptWritten cs [.list (.sym f :: as), .list (.sym g :: bs)])
    (hlen : (encodeAll cs).length < 65536) (hf : (defaultEnv f).isSome = true) (hg : (defaultEnv g).isSome = true)
    (ha : ∀ v ∈ as, isConstant v) (hb : ∀ v ∈ bs, isConstant v) {c : Bytes} {v1 v2 : Value} {b1 b2 : Buffer}
    (h1 : call f as (newBuffer c) = (.ok v1, b1)) (h2 : call g bs b1 = (.ok v2, b2)) :
    executeScriptWithFormat c (encodeAll cs) (b! "shell") = .ok b2.content := by
  rw [execute_written h hlen, eval, evalLoopNoTrace, evalExpr_command f hf as ha, h1]
  simp only
  rw [evalLoopNoTrace, evalExpr_command g hg bs hb, h2]
  rfl

/-- A script whose first command fails. -/
theorem execute_fails {cs : List Char} {f m : Bytes} {as : List Value} {rest : List Value} (h : ScriptWritten cs (.list (.sym f :: as) :: rest))
    (hlen : (encodeAll cs).length < 65536) (hf : (defaultEnv f).isSome = true)
    (ha : ∀ v ∈ as, isConstant v) {c : Bytes} {b1 : Buffer} (h1 : call f as (newBuffer c) = (.err m, b1)) :
    ∃ e, executeScriptWithFormat c (encodeAll cs) (b! "shell") = .err (b! "script execution failed: " ++ m ++ e) := by
  rw [execute_written h hlen, eval, evalLoopNoTrace, evalExpr_command f hf as ha, h1]
  refine ⟨(newExecutionError m (.list (.sym f :: as) :: rest) 0 (.list (.sym f :: as)) b1).message.drop m.length, ?_⟩
  simp only [ExecutionError.message, newExecutionError, List.append_assoc, List.drop_left]

omit [Ext] in
theorem firstOccurrence_at {old c u v : Bytes} (h : FirstOccurrence old c u v) :
    OccursAt old c u.length ∧ ∀ j, j < u.length → ¬ OccursAt old c j := by
  refine ⟨⟨u, v, h.1, rfl⟩, ?_⟩
  rintro j hj ⟨u', v', e, rfl⟩
  exact absurd (h.2 u' v' e) (by omega)

/-- Searching a fresh buffer. -/
theorem search_first {old c u v : Bytes} (hne : old ≠ []) (h : FirstOccurrence old c u v) :
    call (b! "search-forward") [.str old] (newBuffer c) = (okEmpty, (newBuffer c).matched u.length old) := by
  obtain ⟨h1, h2⟩ := firstOccurrence_at h
  have hpos : 0 < old.length := List.length_pos_iff.2 hne
  have hl := h1.le
  refine C06_search_forward_success _ _ (show minInt < 1 by decide) _ ?_ ?_ h1 (fun j _ hj => h2 j hj)
  · show (1 - 1 : Int).toNat < c.length
    simp; omega
  · show (1 - 1 : Int).toNat ≤ u.length
    simp

theorem search_none {old c : Bytes} (h : ∀ u v, c ≠ u ++ old ++ v) :
    call (b! "search-forward") [.str old] (newBuffer c) = (.err (b! "search failed"), newBuffer c) :=
  C06_search_forward_failure _ _ (show minInt < 1 by decide) (.inr fun j _ ⟨u, v, e, _⟩ => h u v e)

section
variable {cs : List Char} (c : Bytes)

/-- **C79**: a script that searches a text and replaces the match. If the text occurs, its first occurrence is replaced, and nothing else changes; if
it does not occur, the script fails (and then no file is written: C29, C62). -/
theorem C79_replace {old new : Bytes} (hlen : (encodeAll cs).length < 65536) (hne : old ≠ [])
    (h : ScriptWritten cs [.list [.sym (b! "search-forward"), .str old], .list [.sym (b! "replace-match"), .str new]]) :
    (∀ u v, FirstOccurrence old c u v → executeScriptWithFormat c (encodeAll cs) (b! "shell") = .ok (u ++ new ++ v)) ∧
    ((∀ u v, c ≠ u ++ old ++ v) → ∃ e, executeScriptWithFormat c (encodeAll cs) (b! "shell") = .err (b! "script execution failed: search failed" ++ e)) := by
  constructor
  · intro u v ho
    obtain ⟨u', v', e1, e2, e3⟩ := C08_replace_valid_match ((newBuffer c).matched u.length old) new
      ⟨u, v, ho.1, rfl, by simp [Buffer.matched]⟩ hne
    have hu : u = u' ∧ v = v' := by
      have e : u ++ (old ++ v) = u' ++ (old ++ v') := by rw [← List.append_assoc, ← List.append_assoc, ← ho.1]; exact e1
      have hl : u.length = u'.length := by simp only [Buffer.matched] at e2; omega
      obtain ⟨h1, h2⟩ := List.append_inj e hl
      exact ⟨h1, (List.append_cancel_left_eq _ _ _).mp h2⟩
    obtain ⟨rfl, rfl⟩ := hu
    exact execute_two h hlen rfl rfl (by simp [isConstant]) (by simp [isConstant]) (search_first hne ho) e3
  · intro hn
    obtain ⟨e, he⟩ := execute_fails h hlen rfl (by simp [isConstant]) (search_none hn)
    exact ⟨e, by rw [he]; rfl⟩

/-- **C79**: a script that searches a text and inserts another behind it. -/
theorem C79_insert_after {old new : Bytes} (hlen : (encodeAll cs).length < 65536) (hne : old ≠ [])
    (h : ScriptWritten cs [.list [.sym (b! "search-forward"), .str old], .list [.sym (b! "insert"), .str new]]) :
    (∀ u v, FirstOccurrence old c u v → executeScriptWithFormat c (encodeAll cs) (b! "shell") = .ok (u ++ old ++ new ++ v)) ∧
    ((∀ u v, c ≠ u ++ old ++ v) → ∃ e, executeScriptWithFormat c (encodeAll cs) (b! "shell") = .err (b! "script execution failed: search failed" ++ e)) := by
  constructor
  · intro u v ho
    have hr : InRange ((newBuffer c).matched u.length old) := by
      have := (firstOccurrence_at ho).1.le
      constructor
      · simp only [Buffer.matched]; omega
      · simp only [Buffer.matched, newBuffer]; omega
    have h3 := C03_insert_splices _ new hr
    have hb : ((newBuffer c).matched u.length old).before = u ++ old ∧ ((newBuffer c).matched u.length old).after = v := by
      constructor
      · simp only [Buffer.before, Buffer.matched, newBuffer]
        rw [show ((u.length : Int) + old.length + 1 - 1).toNat = (u ++ old).length by rw [List.length_append]; omega, ho.1, List.take_left]
      · simp only [Buffer.after, Buffer.matched, newBuffer]
        rw [show ((u.length : Int) + old.length + 1 - 1).toNat = (u ++ old).length by rw [List.length_append]; omega, ho.1, List.drop_left]
    rw [hb.1, hb.2] at h3
    exact execute_two h hlen rfl rfl (by simp [isConstant]) (by simp [isConstant]) (search_first hne ho) h3
  · intro hn
    obtain ⟨e, he⟩ := execute_fails h hlen rfl (by simp [isConstant]) (search_none hn)
    exact ⟨e, by rw [he]; rfl⟩

/-- **C79**: inserting at the beginning and at the end of the text. -/
theorem C79_insert {new : Bytes} (hlen : (encodeAll cs).length < 65536) :
    (ScriptWritten cs [.list [.sym (b! "insert"), .str new]] → executeScriptWithFormat c (encodeAll cs) (b! "shell") = .ok (new ++ c)) ∧
    (ScriptWritten cs [.list [.sym (b! "end-of-buffer")], .list [.sym (b! "insert"), .str new]] →
      executeScriptWithFormat c (encodeAll cs) (b! "shell") = .ok (c ++ new)) := by
  constructor
  · intro h
    have h1 := C03_insert_splices (newBuffer c) new (by constructor <;> simp [newBuffer])
    rw [execute_one h hlen rfl (by simp [isConstant]) h1]
    simp [Buffer.before, Buffer.after, newBuffer]
  · intro h
    have h1 := (C65_effects (newBuffer c) (F64.ofInt 0)).2.1
    have h2 := C03_insert_splices { newBuffer c with point := (newBuffer c).content.length + 1 } new (by constructor <;> simp [newBuffer])
    rw [execute_two h hlen rfl rfl (by simp) (by simp [isConstant]) h1 h2]
    simp [Buffer.before, Buffer.after, newBuffer]

/-- **C79**: inserting in front of line `n` (the last line if there are not so many, the first if `n` is not positive). -/
theorem C79_insert_line {x : F64} {new : Bytes} (hlen : (encodeAll cs).length < 65536) (hc : c.length < 9007199254740992)
    (h : ScriptWritten cs [.list [.sym (b! "goto-line"), .num x], .list [.sym (b! "insert"), .str new]]) :
    ∃ u v, c = u ++ v ∧ (u = [] ∨ u.getLast? = some nl) ∧ (nlCount u : Int) = max 0 (min (x.toInt - 1) (nlCount c)) ∧
      executeScriptWithFormat c (encodeAll cs) (b! "shell") = .ok (u ++ new ++ v) := by
  obtain ⟨p, h1, h2, h3, h4⟩ := C11_goto_line (newBuffer c) x
  have h2 : p ≤ c.length := h2
  have h5 := C03_insert_splices { newBuffer c with point := (p : Int) + 1 } new ⟨by simp only; omega, by simp only [newBuffer]; omega⟩
  refine ⟨c.take p, c.drop p, (List.take_append_drop _ _).symm, ?_, ?_, ?_⟩
  · by_cases hp : p = 0
    · left; rw [hp]; rfl
    · right
      rw [List.getLast?_eq_getElem?, List.length_take, Nat.min_eq_left h2, List.getElem?_take]
      rw [if_pos (by omega)]
      exact h3.2.1.resolve_left hp
  · have h6 := C11_line_number { newBuffer c with point := (p : Int) + 1 } ⟨by simp only; omega, by simp only [newBuffer]; omega⟩
    rw [h6] at h4
    have hb : ({ newBuffer c with point := (p : Int) + 1 } : Buffer).before = c.take p := by simp [Buffer.before, newBuffer]
    rw [hb] at h4
    have h7 : numV (1 + nlCount (c.take p)) = numV (max 1 (min x.toInt (lineCount c))) := by
      have := congrArg Prod.fst h4
      exact Res.ok.inj this
    have c1 : nlCount (c.take p) ≤ c.length := Nat.le_trans (List.length_filter_le _ _) (by simp)
    have c2 : nlCount c ≤ c.length := List.length_filter_le _ _
    have h8 := congrArg (fun v => match v with | Value.num y => y.toInt | _ => 0) h7
    simp only [numV] at h8
    rw [F64.toInt_ofInt _ (by omega), F64.toInt_ofInt _ (by simp only [lineCount]; omega)] at h8
    simp only [lineCount] at h8
    omega
  · rw [execute_two h hlen rfl rfl (by simp [isConstant]) (by simp [isConstant]) h1 h5]
    simp [Buffer.before, Buffer.after, newBuffer]

/-- **C79**: searching a text and deleting its line deletes the whole line in which the text first occurs, with its line end, and nothing else. -/
theorem C79_delete_line {old : Bytes} (hlen : (encodeAll cs).length < 65536) (hne : old ≠ []) (hnl : nl ∉ old)
    (h : ScriptWritten cs [.list [.sym (b! "search-forward"), .str old], .list [.sym (b! "delete-line")]]) :
    (∀ u v, FirstOccurrence old c u v → ∃ pre a z post, c = pre ++ (a ++ old ++ z) ++ post ∧ u = pre ++ a ∧ nl ∉ a ∧ (pre = [] ∨ pre.getLast? = some nl) ∧
      ((∃ y, z = y ++ [nl] ∧ nl ∉ y) ∨ (nl ∉ z ∧ post = [])) ∧ executeScriptWithFormat c (encodeAll cs) (b! "shell") = .ok (pre ++ post)) ∧
    ((∀ u v, c ≠ u ++ old ++ v) → ∃ e, executeScriptWithFormat c (encodeAll cs) (b! "shell") = .err (b! "script execution failed: search failed" ++ e)) := by
  constructor
  · intro u v ho
    have hr : InRange ((newBuffer c).matched u.length old) := by
      have := (firstOccurrence_at ho).1.le
      constructor
      · simp only [Buffer.matched]; omega
      · simp only [Buffer.matched, newBuffer]; omega
    obtain ⟨pre, del, post, e1, e2, e3, e4, e5, e6, e7⟩ := C18_delete_line_whole_lines _ [] 0 (.inl ⟨rfl, rfl⟩) hr
    have e1 : c = pre ++ del ++ post := e1
    have hpt : (((newBuffer c).matched u.length old).point - 1).toNat = u.length + old.length := by simp only [Buffer.matched]; omega
    rw [hpt] at e4 e5 e6
    have hc : u ++ (old ++ v) = pre ++ (del ++ post) := by rw [← List.append_assoc, ← List.append_assoc, ← ho.1, e1]
    have hle : pre.length ≤ u.length := by
      refine Classical.byContradiction fun hlt => ?_
      rcases e3 with rfl | e3
      · simp at hlt
      · have hp : pre[pre.length - 1]? = some nl := by rw [← List.getLast?_eq_getElem?]; exact e3
        have : (u ++ (old ++ v))[pre.length - 1]? = some nl := by
          rw [hc, List.getElem?_append_left (by omega)]; exact hp
        rw [List.getElem?_append_right (by omega), List.getElem?_append_left (by omega)] at this
        exact hnl (List.mem_of_getElem? this)
    obtain ⟨a, rfl⟩ : ∃ a, u = pre ++ a := by
      refine ⟨u.drop pre.length, ?_⟩
      have := congrArg (List.take pre.length) hc
      rw [List.take_left, List.take_append_of_le_length hle] at this
      conv => lhs; rw [← List.take_append_drop pre.length u, this]
    rw [List.append_assoc] at hc
    have hc := List.append_cancel_left hc
    rw [List.length_append] at e4 e5 e6
    have hao : (a ++ old).length ≤ del.length := by rw [List.length_append]; omega
    obtain ⟨z, rfl⟩ : ∃ z, del = a ++ old ++ z := by
      refine ⟨del.drop (a ++ old).length, ?_⟩
      have := congrArg (List.take (a ++ old).length) hc
      rw [← List.append_assoc, List.take_left, List.take_append_of_le_length hao] at this
      conv => lhs; rw [← List.take_append_drop (a ++ old).length del, ← this]
    have hna : nl ∉ a := by
      intro hm
      apply e6
      rw [show pre.length + a.length + old.length - pre.length = (a ++ old).length by rw [List.length_append]; omega, List.take_left]
      exact List.mem_append.2 (.inl hm)
    have hcount : nlCount (a ++ old ++ z) = nlCount z := by
      have h0 : ∀ l : Bytes, nl ∉ l → nlCount l = 0 := by
        intro l hl
        rw [nlCount, List.length_eq_zero_iff, List.filter_eq_nil_iff]
        intro x hx hxe
        have : x = nl := by simpa using hxe
        exact hl (this ▸ hx)
      simp only [nlCount, List.filter_append, List.length_append] at h0 ⊢
      rw [h0 a hna, h0 old hnl]; simp
    refine ⟨pre, a, z, post, e1, rfl, hna, e3, ?_, ?_⟩
    · rw [hcount] at e7
      rcases e7 with ⟨h1, h2⟩ | ⟨h1, h2⟩
      · left
        rcases List.eq_nil_or_concat z with rfl | ⟨y, x, rfl⟩
        · simp [nlCount] at h1
        · have hx : x = nl := by
            rw [List.concat_eq_append, ← List.append_assoc, List.getLast?_append] at h2
            simpa using h2
          subst hx
          refine ⟨y, by simp, ?_⟩
          intro hm
          rw [List.concat_eq_append, nlCount, List.filter_append, List.length_append] at h1
          have : 0 < (y.filter (· == nl)).length := List.length_pos_iff.2 (List.ne_nil_of_mem (List.mem_filter.2 ⟨hm, by simp⟩))
          have h9 : ([nl].filter (· == nl)).length = 1 := by decide
          rw [h9] at h1
          omega
      · right
        refine ⟨?_, h1⟩
        intro hm
        have : 0 < nlCount z := List.length_pos_iff.2 (List.ne_nil_of_mem (List.mem_filter.2 ⟨hm, by simp⟩))
        omega
    · exact execute_two h hlen rfl rfl (by simp [isConstant]) (by simp) (search_first hne ho) e2
  · intro hn
    obtain ⟨e, he⟩ := execute_fails h hlen rfl (by simp [isConstant]) (search_none hn)
    exact ⟨e, by rw [he]; rfl⟩

end

end Texted
