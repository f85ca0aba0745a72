import Verif.Props.EndToEnd
import Verif.Props.Regexp
import Verif.Props.Errors
import Verif.Props.Everyday
/- C81: what the recipes of the README do, for every text. -/
namespace Texted
open Spec
variable [Ext]

/-- Commands that all succeed, one after the other. -/
inductive Performs : List (Bytes × List Value) → Buffer → Buffer → Prop
  | nil (b) : Performs [] b b
  | cons {f as v b b1 b2 rest} : (defaultEnv f).isSome = true → (∀ v ∈ as, isConstant v) → call f as b = (.ok v, b1) → Performs rest b1 b2 →
      Performs ((f, as) :: rest) b b2

/-- A command as an expression. -/
def commandOf (x : Bytes × List Value) : Value := .list (.sym x.1 :: x.2)

theorem performs_loop {cmds : List (Bytes × List Value)} {b b' : Buffer} (h : Performs cmds b b') (w rest : List Value) : ∀ (i : Nat) (v : Value), ∃ v',
    evalLoopNoTrace defaultEnv w i v (cmds.map commandOf ++ rest) b = evalLoopNoTrace defaultEnv w (i + cmds.length) v' rest b' := by
  induction h with
  | nil b => exact fun i v => ⟨v, rfl⟩
  | @cons f as u b b1 b2 cmds hf ha hc _ ih =>
    intro i v
    obtain ⟨v', h'⟩ := ih (i + 1) u
    refine ⟨v', ?_⟩
    rw [List.map_cons, List.cons_append, commandOf, evalLoopNoTrace, evalExpr_command f hf as ha, hc]
    simp only
    rw [h', List.length_cons, show i + 1 + cmds.length = i + (cmds.length + 1) by omega]

/-- A script whose commands all succeed. -/
theorem execute_steps {cs : List Char} {p : List Value} (h : ScriptWritten cs p) (hlen : (encodeAll cs).length < 65536)
    {cmds : List (Bytes × List Value)} {c : Bytes} {b : Buffer} (hs : Performs cmds (newBuffer c) b) (hp : cmds.map commandOf = p) :
    executeScriptWithFormat c (encodeAll cs) (b! "shell") = .ok b.content := by
  subst hp
  obtain ⟨v', hv⟩ := performs_loop hs (cmds.map commandOf) [] 0 (.str [])
  rw [List.append_nil] at hv
  rw [execute_written h hlen, eval, hv]
  rfl

/-- A script one of whose commands fails, those in front of it succeed. -/
theorem execute_stops {cs : List Char} {p : List Value} (h : ScriptWritten cs p) (hlen : (encodeAll cs).length < 65536)
    {cmds : List (Bytes × List Value)} {c : Bytes} {b b1 : Buffer} (hs : Performs cmds (newBuffer c) b) {f m : Bytes} {as : List Value} {rest : List Value}
    (hf : (defaultEnv f).isSome = true) (ha : ∀ v ∈ as, isConstant v) (hc : call f as b = (.err m, b1))
    (hp : cmds.map commandOf ++ commandOf (f, as) :: rest = p) :
    ∃ e, executeScriptWithFormat c (encodeAll cs) (b! "shell") = .err (b! "script execution failed: " ++ m ++ e) := by
  subst hp
  obtain ⟨v', hv⟩ := performs_loop hs (cmds.map commandOf ++ commandOf (f, as) :: rest) (commandOf (f, as) :: rest) 0 (.str [])
  rw [execute_written h hlen, eval, hv, commandOf, evalLoopNoTrace, evalExpr_command f hf as ha, hc]
  refine ⟨(newExecutionError m (cmds.map commandOf ++ .list (.sym f :: as) :: rest) (0 + cmds.length) (.list (.sym f :: as)) b1).message.drop m.length, ?_⟩
  simp only [ExecutionError.message, newExecutionError, List.append_assoc, List.drop_left]

/-! ### Steps -/

/-- Searching from point. -/
theorem search_on (b : Buffer) {pre text old u v : Bytes} (hc : b.content = pre ++ text) (hp : b.point = pre.length + 1) (hne : old ≠ [])
    (h : FirstOccurrence old text u v) : call (b! "search-forward") [.str old] b = (okEmpty, b.matched (pre.length + u.length) old) := by
  have hpt : (b.point - 1).toNat = pre.length := by omega
  have hpos : 0 < old.length := List.length_pos_iff.2 hne
  have hl := congrArg List.length h.1
  have hl' := congrArg List.length hc
  simp only [List.length_append] at hl hl'
  refine C06_search_forward_success _ _ (by omega) _ ?_ ?_ ?_ ?_
  · omega
  · omega
  · exact ⟨pre ++ u, v, by rw [hc, h.1]; simp, by simp⟩
  · rintro j h1 h2 ⟨u', v', e, rfl⟩
    rw [hpt] at h1
    obtain ⟨y, rfl⟩ : ∃ y, u' = pre ++ y := by
      refine ⟨u'.drop pre.length, ?_⟩
      have := congrArg (List.take pre.length) (hc.symm.trans e)
      rw [List.take_left, List.append_assoc, List.take_append_of_le_length h1] at this
      conv => lhs; rw [← List.take_append_drop pre.length u', ← this]
    rw [hc, List.append_assoc, List.append_assoc] at e
    have := h.2 y v' (by rw [List.append_assoc]; exact List.append_cancel_left e)
    rw [List.length_append] at h2
    omega

theorem search_off (b : Buffer) {pre text old : Bytes} (hc : b.content = pre ++ text) (hp : b.point = pre.length + 1)
    (h : ∀ u v, text ≠ u ++ old ++ v) : call (b! "search-forward") [.str old] b = (.err (b! "search failed"), b) := by
  have hpt : (b.point - 1).toNat = pre.length := by omega
  refine C06_search_forward_failure _ _ (by omega) (.inr ?_)
  rintro j h1 ⟨u', v', e, rfl⟩
  rw [hpt] at h1
  obtain ⟨y, rfl⟩ : ∃ y, u' = pre ++ y := by
    refine ⟨u'.drop pre.length, ?_⟩
    have := congrArg (List.take pre.length) (hc.symm.trans e)
    rw [List.take_left, List.append_assoc, List.take_append_of_le_length h1] at this
    conv => lhs; rw [← List.take_append_drop pre.length u', ← this]
  rw [hc, List.append_assoc, List.append_assoc] at e
  exact h y v' (by rw [List.append_assoc]; exact List.append_cancel_left e)

/-- Replacing the region. -/
theorem replace_on (b : Buffer) {pre mid post : Bytes} (new : Bytes) (hc : b.content = pre ++ mid ++ post) (hm : b.mark = pre.length + 1)
    (hp : b.point = pre.length + mid.length + 1) (hne : mid ≠ []) :
    call (b! "replace-region") [.str new] b = (okEmpty, { b with content := pre ++ new ++ post, point := pre.length + new.length + 1 }) := by
  have hpos : 0 < mid.length := List.length_pos_iff.2 hne
  have hl := congrArg List.length hc
  simp only [List.length_append] at hl
  have hlo : regionLo b = pre.length := by simp only [regionLo]; omega
  have hhi : regionHi b = (pre ++ mid).length := by simp only [regionHi, List.length_append]; omega
  have hmin : minInt < 1 := by decide
  have hlt : regionLo b < regionHi b := by rw [hlo, hhi, List.length_append]; omega
  rw [C05_replace_region b new (by omega) (by omega) hlt, C04_delete_region b (by omega) (by omega), if_pos hlt]
  rw [C03_insert_splices _ _ ⟨by simp only; omega, by
    simp only [hlo, hhi, hc, List.length_append, List.length_take, List.length_drop]; omega⟩]
  have e : ((pre.length : Int) + 1 - 1).toNat = pre.length := by omega
  simp only [Buffer.before, Buffer.after, hlo, hhi, hc, e, List.append_assoc, List.take_left, List.drop_left, List.length_append]
  rw [← List.append_assoc pre mid post, ← List.length_append, List.drop_left]
  congr 2
  omega

/-- Deleting the region. -/
theorem delete_on (b : Buffer) {pre mid post : Bytes} (hc : b.content = pre ++ mid ++ post)
    (hm : (b.mark = pre.length + 1 ∧ b.point = pre.length + mid.length + 1) ∨ (b.point = pre.length + 1 ∧ b.mark = pre.length + mid.length + 1)) :
    ∃ p, call (b! "delete-region") [] b = (okEmpty, { b with content := pre ++ post, point := p }) := by
  have hl := congrArg List.length hc
  simp only [List.length_append] at hl
  have hlo : regionLo b = pre.length := by simp only [regionLo]; omega
  have hhi : regionHi b = (pre ++ mid).length := by simp only [regionHi, List.length_append]; omega
  have hmin : minInt < 1 := by decide
  rw [C04_delete_region b (by omega) (by omega)]
  by_cases h0 : mid = []
  · subst h0
    rw [if_neg (by rw [hlo, hhi]; simp)]
    exact ⟨b.point, by rw [List.append_nil] at hc; rw [← hc]⟩
  · have hpos : 0 < mid.length := List.length_pos_iff.2 h0
    rw [if_pos (by rw [hlo, hhi, List.length_append]; omega)]
    refine ⟨(pre.length : Int) + 1, ?_⟩
    rw [hlo, hhi, hc, List.drop_left, List.append_assoc, List.take_left]

omit [Ext] in
theorem take_of_prefix {u x y z : Bytes} (h : u ++ x = y ++ z) (hl : y.length ≤ u.length) : ∃ a, u = y ++ a ∧ z = a ++ x := by
  refine ⟨u.drop y.length, ?_, ?_⟩
  · have := congrArg (List.take y.length) h
    rw [List.take_left, List.take_append_of_le_length hl] at this
    conv => lhs; rw [← List.take_append_drop y.length u, this]
  · have := congrArg (List.drop y.length) h
    rw [List.drop_left, List.drop_append_of_le_length hl] at this
    exact this.symm

/-- Going to the beginning of the line, from behind a text without line ends. -/
theorem line_on (b : Buffer) {u old v : Bytes} (hc : b.content = u ++ old ++ v) (hp : b.point = u.length + old.length + 1) (hne : old ≠ []) (hnl : nl ∉ old) :
    ∃ pre a, u = pre ++ a ∧ nl ∉ a ∧ (pre = [] ∨ pre.getLast? = some nl) ∧
      call (b! "beginning-of-line") [] b = (okEmpty, { b with point := pre.length + 1 }) := by
  have hl := congrArg List.length hc
  simp only [List.length_append] at hl
  have hpos : 0 < old.length := List.length_pos_iff.2 hne
  have hon : b.point ≤ b.content.length ∨ (b.content ≠ [] ∧ b.content.getLast? ≠ some nl) := by
    by_cases hv : v = []
    · right
      subst hv
      rw [List.append_nil] at hc
      refine ⟨fun h0 => ?_, fun h0 => ?_⟩
      · rw [h0] at hl; simp at hl; omega
      · rw [hc, List.getLast?_append_of_ne_nil _ hne] at h0
        exact hnl (List.mem_of_getLast? h0)
    · left
      have := List.length_pos_iff.2 hv
      omega
  obtain ⟨k, h1, h2, h3, h4⟩ := C12_beginning_of_line b ⟨by omega, by omega⟩ hon
  have e : (b.point - 1).toNat = u.length + old.length := by omega
  rw [e] at h2 h4
  have hk : k ≤ u.length := by
    refine Classical.byContradiction fun hlt => ?_
    rcases h3 with h3 | h3
    · omega
    · rw [hc, List.append_assoc, List.getElem?_append_right (by omega), List.getElem?_append_left (by omega)] at h3
      exact hnl (List.mem_of_getElem? h3)
  refine ⟨u.take k, u.drop k, (List.take_append_drop k u).symm, ?_, ?_, ?_⟩
  · intro hm
    obtain ⟨i, hi⟩ := List.getElem?_of_mem hm
    rw [List.getElem?_drop] at hi
    have hlt := (List.getElem?_eq_some_iff.1 hi).1
    refine h4 (k + i) (by omega) (by omega) ?_
    rw [hc, List.append_assoc, List.getElem?_append_left hlt]
    exact hi
  · by_cases h0 : k = 0
    · left; rw [h0]; rfl
    · right
      rw [List.getLast?_eq_getElem?, List.length_take, Nat.min_eq_left hk, List.getElem?_take, if_pos (by omega)]
      have h3 := h3.resolve_left h0
      rwa [hc, List.append_assoc, List.getElem?_append_left (by omega)] at h3
  · rw [h1, List.length_take, Nat.min_eq_left hk]

/-- Inserting at point. -/
theorem insert_on (b : Buffer) {u v : Bytes} (new : Bytes) (hc : b.content = u ++ v) (hp : b.point = u.length + 1) :
    call (b! "insert") [.str new] b = (okEmpty, { b with content := u ++ new ++ v, point := b.point + new.length }) := by
  have hl := congrArg List.length hc
  simp only [List.length_append] at hl
  have e : (b.point - 1).toNat = u.length := by omega
  rw [C03_insert_splices b new ⟨by omega, by omega⟩]
  simp only [Buffer.before, Buffer.after, e, hc, List.take_left, List.drop_left]

/-- Going to a line. -/
theorem goto_line_on (b : Buffer) (x : F64) {c : Bytes} (hb : b.content = c) (hc : c.length < 9007199254740992) :
    ∃ u v, c = u ++ v ∧ (u = [] ∨ u.getLast? = some nl) ∧ (nlCount u : Int) = max 0 (min (x.toInt - 1) (nlCount c)) ∧
      call (b! "goto-line") [.num x] b = (okEmpty, { b with point := u.length + 1 }) := by
  obtain ⟨p, h1, h2, h3, h4⟩ := C11_goto_line b x
  subst hb
  refine ⟨b.content.take p, b.content.drop p, (List.take_append_drop _ _).symm, ?_, ?_, ?_⟩
  · by_cases hp : p = 0
    · left; rw [hp]; rfl
    · right
      rw [List.getLast?_eq_getElem?, List.length_take, Nat.min_eq_left h2, List.getElem?_take]
      rw [if_pos (by omega)]
      exact h3.2.1.resolve_left hp
  · have h6 := C11_line_number { b with point := (p : Int) + 1 } ⟨by simp only; omega, by simp only; omega⟩
    rw [h6] at h4
    have hbf : ({ b with point := (p : Int) + 1 } : Buffer).before = b.content.take p := by simp [Buffer.before]
    rw [hbf] at h4
    have h7 : numV (1 + nlCount (b.content.take p)) = numV (max 1 (min x.toInt (lineCount b.content))) := by
      have := congrArg Prod.fst h4
      exact Res.ok.inj this
    have c1 : nlCount (b.content.take p) ≤ b.content.length := Nat.le_trans (List.length_filter_le _ _) (by simp)
    have c2 : nlCount b.content ≤ b.content.length := List.length_filter_le _ _
    have h8 := congrArg (fun v => match v with | Value.num y => y.toInt | _ => 0) h7
    simp only [numV] at h8
    rw [F64.toInt_ofInt _ (by omega), F64.toInt_ofInt _ (by simp only [lineCount]; omega)] at h8
    simp only [lineCount] at h8
    omega
  · rw [h1, List.length_take, Nat.min_eq_left h2]

omit [Ext] in
/-- Of two beginnings that end at line ends, the one with more line ends is longer. -/
theorem line_starts_ordered {u v u' v' : Bytes} (h : u ++ v = u' ++ v') (h1 : u = [] ∨ u.getLast? = some nl)
    (hn : nlCount u ≤ nlCount u') : ∃ m, u' = u ++ m ∧ v = m ++ v' := by
  by_cases hl : u.length ≤ u'.length
  · obtain ⟨a, h2, h3⟩ := take_of_prefix h.symm hl
    exact ⟨a, h2, h3⟩
  · obtain ⟨a, rfl, h3⟩ := take_of_prefix h (by omega)
    rw [nlCount_append] at hn
    rcases List.eq_nil_or_concat a with rfl | ⟨y, z, rfl⟩
    · simp at hl
    · rcases h1 with h1 | h1
      · simp at h1
      · rw [List.concat_eq_append, ← List.append_assoc, List.getLast?_append] at h1
        have hz : z = nl := by simpa using h1
        subst hz
        rw [List.concat_eq_append, nlCount_append] at hn
        have : nlCount [nl] = 1 := by decide
        omega

/-- **C20**, wherever point is in front of the end: mark-word selects the letters and digits that touch point, on both sides. -/
theorem C20_mark_word_touching (b : Buffer) {l r : Bytes} (hc : b.content = l ++ r) (hp : b.point = l.length + 1) (hr : r ≠ []) :
    ∃ a w z t, l = a ++ w ∧ r = z ++ t ∧ (∀ x ∈ w, WordByte x) ∧ (∀ x ∈ z, WordByte x) ∧ (∀ x, a.getLast? = some x → ¬ WordByte x) ∧
      (∀ x, t.head? = some x → ¬ WordByte x) ∧
      call (b! "mark-word") [] b = (okEmpty, { b with mark := a.length + 1, point := l.length + z.length + 1 }) := by
  have hl := congrArg List.length hc
  simp only [List.length_append] at hl
  have hrl := List.length_pos_iff.2 hr
  obtain ⟨s, hs, h1, h2, h3⟩ := scanBack_spec b.content (fun x => !isLetter x) l.length (by omega)
  obtain ⟨e, he, g1, g2, g3, g4⟩ := scanFwd_spec b.content (fun x => !isLetter x) l.length (by omega)
  have hr1 : ∀ i, r[i]? = b.content[l.length + i]? := fun i => by
    rw [hc, List.getElem?_append_right (by omega)]; congr 1; omega
  have hl1 : ∀ i, i < l.length → l[i]? = b.content[i]? := fun i hi => by rw [hc, List.getElem?_append_left hi]
  refine ⟨l.take s, l.drop s, r.take (e - l.length), r.drop (e - l.length), (List.take_append_drop _ _).symm, (List.take_append_drop _ _).symm,
    ?_, ?_, ?_, ?_, ?_⟩
  · intro x hx
    obtain ⟨i, hi⟩ := List.getElem?_of_mem hx
    rw [List.getElem?_drop] at hi
    have hlt := (List.getElem?_eq_some_iff.1 hi).1
    obtain ⟨y, hy, hy'⟩ := h3 (s + i) (by omega) hlt
    rw [← hl1 _ hlt, hi] at hy
    cases hy
    exact (isLetter_iff x).1 (by simpa using hy')
  · intro x hx
    obtain ⟨i, hi⟩ := List.getElem?_of_mem hx
    have hlt := (List.getElem?_eq_some_iff.1 hi).1
    rw [List.length_take] at hlt
    rw [List.getElem?_take, if_pos (by omega), hr1] at hi
    obtain ⟨y, hy, hy'⟩ := g4 (l.length + i) (by omega) (by omega)
    rw [hi] at hy
    cases hy
    exact (isLetter_iff x).1 (by simpa using hy')
  · intro x hx hw
    rcases h2 with h2 | ⟨y, hy, hy'⟩
    · subst h2; simp at hx
    · by_cases h0 : s = 0
      · subst h0; simp at hx
      · rw [List.getLast?_eq_getElem?, List.length_take, Nat.min_eq_left h1, List.getElem?_take, if_pos (by omega), hl1 _ (by omega), hy] at hx
        cases hx
        have := (isLetter_iff _).2 hw
        simp [this] at hy'
  · intro x hx hw
    rw [List.head?_eq_getElem?, List.getElem?_drop, hr1, show l.length + (e - l.length + 0) = e by omega] at hx
    rcases g3 with g3 | ⟨y, hy, hy'⟩
    · rw [List.getElem?_eq_none (by omega)] at hx; cases hx
    · rw [hx] at hy
      cases hy
      have := (isLetter_iff _).2 hw
      simp [this] at hy'
  · simp only [call_mark_word, builtinMarkWord, noArgs, hp, dec64_succ]
    rw [if_neg (by omega)]
    simp only [hs, he, done, okEmpty, List.length_take]
    congr 2
    · omega
    · omega

/-! ### The recipes -/
section
variable {cs : List Char} (c : Bytes)

/-- **C81**: `mark-whole-buffer; replace-region NEW` replaces the whole text, except that the empty text stays empty. -/
theorem C81_replace_everything {new : Bytes} (hlen : (encodeAll cs).length < 65536)
    (h : ScriptWritten cs [.list [.sym (b! "mark-whole-buffer")], .list [.sym (b! "replace-region"), .str new]]) :
    executeScriptWithFormat c (encodeAll cs) (b! "shell") = .ok (if c = [] then [] else new) := by
  have h1 := (C65_effects (newBuffer c) (F64.ofInt 0)).2.2.1
  by_cases hc : c = []
  · subst hc
    rw [if_pos rfl]
    exact execute_steps h hlen (.cons rfl (by simp) h1 (.cons (f := b! "replace-region") (as := [.str new]) rfl (by simp [isConstant]) rfl (.nil _))) rfl
  · have h2 := replace_on { newBuffer c with mark := 1, point := (newBuffer c).content.length + 1 } (pre := []) (mid := c) (post := []) new
      (by simp [newBuffer]) (by simp) (by simp [newBuffer]) hc
    rw [if_neg hc, execute_steps h hlen (.cons rfl (by simp) h1 (.cons rfl (by simp [isConstant]) h2 (.nil _))) rfl]
    simp

omit [Ext] in
theorem matched_content (b : Buffer) (i : Nat) (m : Bytes) : (b.matched i m).content = b.content := rfl

/-- A search that finds nothing, as the first command. -/
theorem recipe_fails {old : Bytes} {rest : List Value} (hlen : (encodeAll cs).length < 65536)
    (h : ScriptWritten cs (.list [.sym (b! "search-forward"), .str old] :: rest)) (hn : ∀ u v, c ≠ u ++ old ++ v) :
    ∃ e, executeScriptWithFormat c (encodeAll cs) (b! "shell") = .err (b! "script execution failed: search failed" ++ e) := by
  obtain ⟨e, he⟩ := execute_fails h hlen rfl (by simp [isConstant]) (search_none hn)
  exact ⟨e, by rw [he]; rfl⟩

/-- **C81**: `search-forward OLD; beginning-of-line; insert NEW` inserts NEW in front of the line in which OLD first occurs. -/
theorem C81_insert_above {old new : Bytes} (hlen : (encodeAll cs).length < 65536) (hne : old ≠ []) (hnl : nl ∉ old)
    (h : ScriptWritten cs [.list [.sym (b! "search-forward"), .str old], .list [.sym (b! "beginning-of-line")], .list [.sym (b! "insert"), .str new]]) :
    (∀ u v, FirstOccurrence old c u v → ∃ pre a, u = pre ++ a ∧ nl ∉ a ∧ (pre = [] ∨ pre.getLast? = some nl) ∧
      executeScriptWithFormat c (encodeAll cs) (b! "shell") = .ok (pre ++ new ++ (a ++ old ++ v))) ∧
    ((∀ u v, c ≠ u ++ old ++ v) → ∃ e, executeScriptWithFormat c (encodeAll cs) (b! "shell") = .err (b! "script execution failed: search failed" ++ e)) := by
  refine ⟨fun u v ho => ?_, recipe_fails c hlen h⟩
  have h1 := search_first hne ho
  obtain ⟨pre, a, rfl, ha, hpre, h2⟩ := line_on ((newBuffer c).matched u.length old) (u := u) (old := old) (v := v) ho.1 rfl hne hnl
  have h3 := insert_on { (newBuffer c).matched (pre ++ a).length old with point := (pre.length : Int) + 1 } (u := pre) (v := a ++ old ++ v) new
    (by show c = _; rw [ho.1]; simp) rfl
  exact ⟨pre, a, rfl, ha, hpre, execute_steps h hlen (.cons rfl (by simp [isConstant]) h1 (.cons rfl (by simp) h2 (.cons rfl (by simp [isConstant]) h3 (.nil _)))) rfl⟩

/-- **C81**: `search-forward FROM; set-mark; search-forward TO; replace-region NEW` replaces what follows the first FROM, up to and with the first TO
behind it. FROM itself stays. -/
theorem C81_replace_from_to {a z new : Bytes} (hlen : (encodeAll cs).length < 65536) (ha : a ≠ []) (hz : z ≠ [])
    (h : ScriptWritten cs [.list [.sym (b! "search-forward"), .str a], .list [.sym (b! "set-mark")], .list [.sym (b! "search-forward"), .str z],
      .list [.sym (b! "replace-region"), .str new]]) :
    (∀ u v s t, FirstOccurrence a c u v → FirstOccurrence z v s t →
      executeScriptWithFormat c (encodeAll cs) (b! "shell") = .ok (u ++ a ++ new ++ t)) ∧
    ((∀ u v, c ≠ u ++ a ++ v) → ∃ e, executeScriptWithFormat c (encodeAll cs) (b! "shell") = .err (b! "script execution failed: search failed" ++ e)) ∧
    (∀ u v, FirstOccurrence a c u v → (∀ s t, v ≠ s ++ z ++ t) →
      ∃ e, executeScriptWithFormat c (encodeAll cs) (b! "shell") = .err (b! "script execution failed: search failed" ++ e)) := by
  refine ⟨fun u v s t ho hs => ?_, recipe_fails c hlen h, fun u v ho hs => ?_⟩
  · have h1 := search_first ha ho
    have h2 := (C65_effects ((newBuffer c).matched u.length a) (F64.ofInt 0)).2.2.2.1
    have h3 := search_on { (newBuffer c).matched u.length a with mark := ((newBuffer c).matched u.length a).point } (pre := u ++ a) (text := v)
      (by show c = _; rw [ho.1]) (by show (u.length : Int) + a.length + 1 = _; rw [List.length_append]; omega) hz hs
    have h4 := replace_on ({ (newBuffer c).matched u.length a with mark := ((newBuffer c).matched u.length a).point }.matched ((u ++ a).length + s.length) z)
      (pre := u ++ a) (mid := s ++ z) (post := t) new (by show c = _; rw [ho.1, hs.1]; simp)
      (by show (u.length : Int) + a.length + 1 = _; rw [List.length_append]; omega)
      (by show (((u ++ a).length + s.length : Nat) : Int) + z.length + 1 = _; simp only [List.length_append]; omega) (by simp [hz])
    exact execute_steps h hlen (.cons rfl (by simp [isConstant]) h1 (.cons rfl (by simp) h2 (.cons rfl (by simp [isConstant]) h3
      (.cons rfl (by simp [isConstant]) h4 (.nil _))))) rfl
  · have h1 := search_first ha ho
    have h2 := (C65_effects ((newBuffer c).matched u.length a) (F64.ofInt 0)).2.2.2.1
    have h3 := search_off { (newBuffer c).matched u.length a with mark := ((newBuffer c).matched u.length a).point } (pre := u ++ a) (text := v)
      (by show c = _; rw [ho.1]) (by show (u.length : Int) + a.length + 1 = _; rw [List.length_append]; omega) hs
    obtain ⟨e, he⟩ := execute_stops h hlen (.cons rfl (by simp [isConstant]) h1 (.cons rfl (by simp) h2 (.nil _))) (f := b! "search-forward") rfl
      (by simp [isConstant]) h3 rfl
    exact ⟨e, by rw [he]; rfl⟩

/-- **C81**: `search-forward FROM; beginning-of-line; set-mark; search-forward TO; forward-char; delete-region` deletes from the beginning of the line in
which FROM first occurs up to the first TO behind that beginning, and one byte more, if there is one. -/
theorem C81_delete_from_line_to {a z : Bytes} (hlen : (encodeAll cs).length < 65536) (ha : a ≠ []) (hz : z ≠ []) (hnl : nl ∉ a) (hc : c.length < 9007199254740992)
    (h : ScriptWritten cs [.list [.sym (b! "search-forward"), .str a], .list [.sym (b! "beginning-of-line")], .list [.sym (b! "set-mark")],
      .list [.sym (b! "search-forward"), .str z], .list [.sym (b! "forward-char")], .list [.sym (b! "delete-region")]]) (u v : Bytes)
    (ho : FirstOccurrence a c u v) :
    ∃ pre i, u = pre ++ i ∧ nl ∉ i ∧ (pre = [] ∨ pre.getLast? = some nl) ∧
      (∀ s t, FirstOccurrence z (i ++ a ++ v) s t → executeScriptWithFormat c (encodeAll cs) (b! "shell") = .ok (pre ++ t.drop 1)) ∧
      ((∀ s t, i ++ a ++ v ≠ s ++ z ++ t) →
        ∃ e, executeScriptWithFormat c (encodeAll cs) (b! "shell") = .err (b! "script execution failed: search failed" ++ e)) := by
  have h1 := search_first ha ho
  obtain ⟨pre, i, rfl, hi, hpre, h2⟩ := line_on ((newBuffer c).matched u.length a) (u := u) (old := a) (v := v) ho.1 rfl ha hnl
  have h3 := (C65_effects { (newBuffer c).matched (pre ++ i).length a with point := (pre.length : Int) + 1 } (F64.ofInt 0)).2.2.2.1
  have hcc : c = pre ++ (i ++ a ++ v) := by rw [ho.1]; simp
  refine ⟨pre, i, rfl, hi, hpre, fun s t hs => ?_, fun hs => ?_⟩
  · have h4 := search_on { (newBuffer c).matched (pre ++ i).length a with point := (pre.length : Int) + 1, mark := (pre.length : Int) + 1 } (pre := pre)
      (text := i ++ a ++ v) hcc rfl hz hs
    have hl := congrArg List.length (hcc.trans (congrArg _ hs.1))
    simp only [List.length_append] at hl
    have h5 := C14_forward_char ({ (newBuffer c).matched (pre ++ i).length a with point := (pre.length : Int) + 1, mark := (pre.length : Int) + 1 }.matched
      (pre.length + s.length) z) [] 1 (.inl ⟨rfl, rfl⟩) (by simp only [Buffer.matched]; omega) (by simp only [Buffer.matched]; omega)
    obtain ⟨p, h6⟩ := delete_on { { (newBuffer c).matched (pre ++ i).length a with point := (pre.length : Int) + 1, mark := (pre.length : Int) + 1 }.matched
        (pre.length + s.length) z with point := max 1 (min ((((pre.length + s.length : Nat) : Int) + z.length + 1) + 1) (c.length + 1)) }
      (pre := pre) (mid := s ++ z ++ t.take 1) (post := t.drop 1)
      (by show c = _; rw [hcc, hs.1]; conv => lhs; rw [← List.take_append_drop 1 t]
          simp)
      (.inl ⟨rfl, by
        show max 1 (min ((((pre.length + s.length : Nat) : Int) + z.length + 1) + 1) ((c.length : Int) + 1)) = _
        simp only [List.length_append, List.length_take]
        omega⟩)
    exact execute_steps h hlen (.cons rfl (by simp [isConstant]) h1 (.cons rfl (by simp) h2 (.cons rfl (by simp) h3 (.cons rfl (by simp [isConstant]) h4
      (.cons rfl (by simp) h5 (.cons rfl (by simp) h6 (.nil _))))))) rfl
  · have h4 := search_off { (newBuffer c).matched (pre ++ i).length a with point := (pre.length : Int) + 1, mark := (pre.length : Int) + 1 } (pre := pre)
      (text := i ++ a ++ v) hcc rfl hs
    obtain ⟨e, he⟩ := execute_stops h hlen (.cons rfl (by simp [isConstant]) h1 (.cons rfl (by simp) h2 (.cons rfl (by simp) h3 (.nil _)))) (f := b! "search-forward")
      rfl (by simp [isConstant]) h4 rfl
    exact ⟨e, by rw [he]; rfl⟩

/-- **C81**: `goto-line M; set-mark; goto-line N; delete-region` deletes whole lines: from the beginning of one of the two lines to the beginning of the
other; a line beyond the last counts as the last, so that the last line stays. -/
theorem C81_delete_lines {x y : F64} (hlen : (encodeAll cs).length < 65536) (hc : c.length < 9007199254740992)
    (h : ScriptWritten cs [.list [.sym (b! "goto-line"), .num x], .list [.sym (b! "set-mark")], .list [.sym (b! "goto-line"), .num y],
      .list [.sym (b! "delete-region")]]) :
    ∃ u m w, c = u ++ m ++ w ∧ (u = [] ∨ u.getLast? = some nl) ∧ (u ++ m = [] ∨ (u ++ m).getLast? = some nl) ∧
      (nlCount u : Int) = max 0 (min (min x.toInt y.toInt - 1) (nlCount c)) ∧ (nlCount (u ++ m) : Int) = max 0 (min (max x.toInt y.toInt - 1) (nlCount c)) ∧
      executeScriptWithFormat c (encodeAll cs) (b! "shell") = .ok (u ++ w) := by
  obtain ⟨u, v, hu, hu1, hu2, h1⟩ := goto_line_on (newBuffer c) x (c := c) rfl hc
  have h2 := (C65_effects { newBuffer c with point := (u.length : Int) + 1 } (F64.ofInt 0)).2.2.2.1
  obtain ⟨u', v', hv, hv1, hv2, h3⟩ := goto_line_on { newBuffer c with point := (u.length : Int) + 1, mark := (u.length : Int) + 1 } y (c := c) rfl hc
  have key : ∀ p m w, c = p ++ m ++ w → (u = p ∧ u' = p ++ m) ∨ (u' = p ∧ u = p ++ m) →
      executeScriptWithFormat c (encodeAll cs) (b! "shell") = .ok (p ++ w) := by
    intro p m w hpm hh
    obtain ⟨q, h4⟩ := delete_on { newBuffer c with point := (u'.length : Int) + 1, mark := (u.length : Int) + 1 } (pre := p) (mid := m) (post := w) hpm (by
      rcases hh with ⟨rfl, rfl⟩ | ⟨rfl, rfl⟩
      · exact .inl ⟨rfl, by simp⟩
      · exact .inr ⟨rfl, by simp⟩)
    exact execute_steps h hlen (.cons rfl (by simp [isConstant]) h1 (.cons rfl (by simp) h2 (.cons rfl (by simp [isConstant]) h3 (.cons rfl (by simp) h4 (.nil _))))) rfl
  rcases Int.le_total x.toInt y.toInt with hxy | hxy
  · obtain ⟨m, rfl, rfl⟩ := line_starts_ordered (hu.symm.trans hv) hu1 (by omega)
    refine ⟨u, m, v', hv, hu1, hv1, by rw [hu2]; omega, by rw [hv2]; omega, key u m v' hv (.inl ⟨rfl, rfl⟩)⟩
  · obtain ⟨m, rfl, rfl⟩ := line_starts_ordered (hv.symm.trans hu) hv1 (by omega)
    refine ⟨u', m, v, hu, hv1, hu1, by rw [hv2]; omega, by rw [hu2]; omega, key u' m v hu (.inr ⟨rfl, rfl⟩)⟩

omit [Ext] in
theorem split_three (c : Bytes) {i j : Nat} (h : i ≤ j) : c = c.take i ++ (c.drop i).take (j - i) ++ c.drop j := by
  have e : c.drop j = (c.drop i).drop (j - i) := by rw [List.drop_drop]; congr 1; omega
  rw [List.append_assoc, e, List.take_append_drop, List.take_append_drop]

/-- **C81**: `re-search-forward PATTERN; replace-match NEW` replaces a leftmost match by NEW as it is (no references are expanded); an empty match, no
match, and a pattern that cannot be compiled are errors. -/
theorem C81_regexp_replace {p new : Bytes} (hlen : (encodeAll cs).length < 65536)
    (h : ScriptWritten cs [.list [.sym (b! "re-search-forward"), .str p], .list [.sym (b! "replace-match"), .str new]]) :
    (∀ re M, Ext.compile p = .ok re → EngineFor re M →
      (c ≠ [] → (∃ i j, M c i j) → ∃ i j, M c i j ∧ (∀ a e, M c a e → i ≤ a) ∧
        (i < j → executeScriptWithFormat c (encodeAll cs) (b! "shell") = .ok (c.take i ++ new ++ c.drop j)) ∧
        (i = j → ∃ e, executeScriptWithFormat c (encodeAll cs) (b! "shell") = .err (b! "script execution failed: no previous search" ++ e))) ∧
      (c = [] ∨ (∀ i j, ¬ M c i j) →
        ∃ e, executeScriptWithFormat c (encodeAll cs) (b! "shell") = .err (b! "script execution failed: search failed" ++ e))) ∧
    (∀ m, c ≠ [] → Ext.compile p = .error m →
      ∃ e, executeScriptWithFormat c (encodeAll cs) (b! "shell") = .err (b! "script execution failed: invalid regexp: " ++ m ++ e)) := by
  have hr : InRange (newBuffer c) := by constructor <;> simp [newBuffer]
  have haf : (newBuffer c).after = c := by simp [Buffer.after, newBuffer]
  refine ⟨fun re M hre hM => ⟨fun hc hex => ?_, fun hn => ?_⟩, fun m hc hm => ?_⟩
  · have := (C66_re_search_forward (newBuffer c) p re M hre hM hr).1
    rw [haf] at this
    obtain ⟨i, j, h1, h2, h3⟩ := this hc hex
    obtain ⟨hij, hj⟩ := hM.inside c i j h1
    rw [show ((newBuffer c).point - 1).toNat + i = i by simp [newBuffer]] at h3
    refine ⟨i, j, h1, h2, fun hlt => ?_, fun heq => ?_⟩
    · have hs := split_three c hij
      have hi : (c.take i).length = i := by rw [List.length_take]; omega
      have hm : ((c.drop i).take (j - i)).length = j - i := by rw [List.length_take, List.length_drop]; omega
      generalize (c.drop i).take (j - i) = m at *
      generalize c.take i = u at *
      generalize c.drop j = v at *
      have hne : m ≠ [] := by intro h0; rw [h0] at hm; simp at hm; omega
      obtain ⟨u', v', e1, e2, e3⟩ := C08_replace_valid_match ((newBuffer c).matched i m) new ⟨u, v, hs, by simp only [Buffer.matched, hi],
        by simp only [Buffer.matched, hi]⟩ hne
      have e1 : c = u' ++ m ++ v' := e1
      have e2 : ((i : Int) + 1) = u'.length + 1 := e2
      obtain ⟨h4, h5⟩ := List.append_inj (by rw [← List.append_assoc, ← List.append_assoc, ← hs, ← e1] : u ++ (m ++ v) = u' ++ (m ++ v')) (by omega)
      have h5 := List.append_cancel_left h5
      subst h4 h5
      exact execute_two h hlen rfl rfl (by simp [isConstant]) (by simp [isConstant]) h3 e3
    · subst heq
      have h4 := C08_replace_without_search ((newBuffer c).matched i ((c.drop i).take (i - i))) new (by simp [Buffer.matched])
      obtain ⟨e, he⟩ := execute_stops h hlen (.cons rfl (by simp [isConstant]) h3 (.nil _)) (f := b! "replace-match") rfl (by simp [isConstant]) h4 rfl
      exact ⟨e, by rw [he]; rfl⟩
  · have := (C66_re_search_forward (newBuffer c) p re M hre hM hr).2
    rw [haf] at this
    obtain ⟨e, he⟩ := execute_fails h hlen rfl (by simp [isConstant]) (this hn)
    exact ⟨e, by rw [he]; rfl⟩
  · have h1 := (C66_invalid_pattern (newBuffer c) p m [] [] hm hr).1 (by rw [haf]; exact hc)
    obtain ⟨e, he⟩ := execute_fails h hlen rfl (by simp [isConstant]) h1
    exact ⟨e, by rw [he]; simp only [List.append_assoc]; rfl⟩

/-- Selecting the word at point and replacing it, in the middle of the text. -/
theorem word_on (b : Buffer) {l r : Bytes} (new : Bytes) (hc : b.content = l ++ r) (hp : b.point = l.length + 1) (hr : r ≠ []) :
    ∃ a w z t, l = a ++ w ∧ r = z ++ t ∧ (∀ x ∈ w, WordByte x) ∧ (∀ x ∈ z, WordByte x) ∧ (∀ x, a.getLast? = some x → ¬ WordByte x) ∧
      (∀ x, t.head? = some x → ¬ WordByte x) ∧ ∃ b1 b2, call (b! "mark-word") [] b = (okEmpty, b1) ∧ call (b! "replace-region") [.str new] b1 = (okEmpty, b2) ∧
        b2.content = if w ++ z = [] then b.content else a ++ new ++ t := by
  obtain ⟨a, w, z, t, rfl, rfl, h1, h2, h3, h4, h5⟩ := C20_mark_word_touching b hc hp hr
  refine ⟨a, w, z, t, rfl, rfl, h1, h2, h3, h4, ?_⟩
  by_cases hwz : w ++ z = []
  · rw [if_pos hwz]
    obtain ⟨rfl, rfl⟩ := List.append_eq_nil_iff.1 hwz
    refine ⟨_, _, h5, C05_replace_region_empty _ new ?_ ?_ ?_, rfl⟩
    · simp only; omega
    · simp only; omega
    · simp only [regionLo, regionHi, List.append_nil, List.length_nil]; omega
  · rw [if_neg hwz]
    refine ⟨_, _, h5, replace_on _ (pre := a) (mid := w ++ z) (post := t) new ?_ rfl ?_ hwz, rfl⟩
    · simp only [hc, List.append_assoc]
    · simp only [List.length_append]; omega

/-- **C81**: `search-forward OLD; mark-word; replace-region NEW` replaces all letters and digits that touch the end of the first OLD, on both sides (so it
is the word OLD that is replaced if OLD is a whole word); if none do, nothing changes. But if the text ends with that OLD, *the whole text* is
replaced by NEW. -/
theorem C81_replace_word {old new : Bytes} (hlen : (encodeAll cs).length < 65536) (hne : old ≠ [])
    (h : ScriptWritten cs [.list [.sym (b! "search-forward"), .str old], .list [.sym (b! "mark-word")], .list [.sym (b! "replace-region"), .str new]]) :
    (∀ u v, FirstOccurrence old c u v → v ≠ [] → ∃ a w z t, u ++ old = a ++ w ∧ v = z ++ t ∧ (∀ x ∈ w, WordByte x) ∧ (∀ x ∈ z, WordByte x) ∧
      (∀ x, a.getLast? = some x → ¬ WordByte x) ∧ (∀ x, t.head? = some x → ¬ WordByte x) ∧
      executeScriptWithFormat c (encodeAll cs) (b! "shell") = .ok (if w ++ z = [] then c else a ++ new ++ t)) ∧
    (∀ u, FirstOccurrence old c u [] → executeScriptWithFormat c (encodeAll cs) (b! "shell") = .ok new) ∧
    ((∀ u v, c ≠ u ++ old ++ v) → ∃ e, executeScriptWithFormat c (encodeAll cs) (b! "shell") = .err (b! "script execution failed: search failed" ++ e)) := by
  refine ⟨fun u v ho hv => ?_, fun u ho => ?_, recipe_fails c hlen h⟩
  · have h1 := search_first hne ho
    obtain ⟨a, w, z, t, e1, e2, e3, e4, e5, e6, b1, b2, h2, h3, h4⟩ := word_on ((newBuffer c).matched u.length old) (l := u ++ old) (r := v) new ho.1
      (by show (u.length : Int) + old.length + 1 = _; rw [List.length_append]; omega) hv
    refine ⟨a, w, z, t, e1, e2, e3, e4, e5, e6, ?_⟩
    rw [execute_steps h hlen (.cons rfl (by simp [isConstant]) h1 (.cons rfl (by simp) h2 (.cons rfl (by simp [isConstant]) h3 (.nil _)))) rfl, h4]
    rfl
  · have h1 := search_first hne ho
    have hl := congrArg List.length ho.1
    simp only [List.length_append, List.length_nil] at hl
    have hpos := List.length_pos_iff.2 hne
    have h2 : call (b! "mark-word") [] ((newBuffer c).matched u.length old) = (okEmpty, (newBuffer c).matched u.length old) := by
      simp only [call_mark_word, builtinMarkWord, noArgs]
      rw [if_pos]
      · rfl
      · right
        show dec64 ((u.length : Int) + old.length + 1) ≥ (c.length : Int)
        rw [show (u.length : Int) + old.length + 1 = ((u.length + old.length : Nat) : Int) + 1 by omega, dec64_succ]
        omega
    have h3 := replace_on ((newBuffer c).matched u.length old) (pre := []) (mid := c) (post := []) new (by simp [Buffer.matched, newBuffer]) rfl
      (by show (u.length : Int) + old.length + 1 = _; simp only [List.length_nil]; omega) (by intro h0; rw [h0] at hl; simp at hl; omega)
    rw [execute_steps h hlen (.cons rfl (by simp [isConstant]) h1 (.cons rfl (by simp) h2 (.cons rfl (by simp [isConstant]) h3 (.nil _)))) rfl]
    simp

/-- **C81**: if OLD is a word, that is, letters and digits between other characters, just that word is replaced. -/
theorem C81_replace_whole_word {old new : Bytes} (hlen : (encodeAll cs).length < 65536) (hne : old ≠ [])
    (h : ScriptWritten cs [.list [.sym (b! "search-forward"), .str old], .list [.sym (b! "mark-word")], .list [.sym (b! "replace-region"), .str new]])
    (u v : Bytes) (ho : FirstOccurrence old c u v) (hw : ∀ x ∈ old, WordByte x) (hu : ∀ x, u.getLast? = some x → ¬ WordByte x) (hv : v ≠ [])
    (hv' : ∀ x, v.head? = some x → ¬ WordByte x) : executeScriptWithFormat c (encodeAll cs) (b! "shell") = .ok (u ++ new ++ v) := by
  obtain ⟨a, w, z, t, e1, e2, e3, e4, e5, e6, e7⟩ := (C81_replace_word c hlen hne h).1 u v ho hv
  have hz : z = [] := by
    cases z with
    | nil => rfl
    | cons x z => exact absurd (e4 x (by simp)) (hv' x (by rw [e2]; rfl))
  subst hz
  have hau : a = u := by
    by_cases hle : u.length ≤ a.length
    · obtain ⟨i, rfl, hi⟩ := take_of_prefix e1.symm hle
      rcases List.eq_nil_or_concat i with rfl | ⟨y, x, rfl⟩
      · simp
      · exact absurd (hw x (by rw [hi]; simp)) (e5 x (by simp))
    · obtain ⟨i, rfl, hi⟩ := take_of_prefix e1 (by omega)
      rcases List.eq_nil_or_concat i with rfl | ⟨y, x, rfl⟩
      · simp
      · exact absurd (e3 x (by rw [hi]; simp)) (hu x (by simp))
  subst hau
  have hwo := List.append_cancel_left e1
  subst hwo
  rw [e7, if_neg (by simpa using hne), e2]
  rfl

/-- **C81**: `goto-char N; mark-word; replace-region NEW` in front of the end replaces the letters and digits that touch this position; if there are
none, nothing changes. At or beyond the end it replaces the whole text (if there is any). -/
theorem C81_replace_word_at {x : F64} {new : Bytes} (hlen : (encodeAll cs).length < 65536)
    (h : ScriptWritten cs [.list [.sym (b! "goto-char"), .num x], .list [.sym (b! "mark-word")], .list [.sym (b! "replace-region"), .str new]]) :
    (∀ l r, c = l ++ r → max 1 x.toInt = l.length + 1 → r ≠ [] → ∃ a w z t, l = a ++ w ∧ r = z ++ t ∧ (∀ x ∈ w, WordByte x) ∧ (∀ x ∈ z, WordByte x) ∧
      (∀ x, a.getLast? = some x → ¬ WordByte x) ∧ (∀ x, t.head? = some x → ¬ WordByte x) ∧
      executeScriptWithFormat c (encodeAll cs) (b! "shell") = .ok (if w ++ z = [] then c else a ++ new ++ t)) ∧
    ((c.length : Int) < x.toInt → c ≠ [] → executeScriptWithFormat c (encodeAll cs) (b! "shell") = .ok new) := by
  have h1 := C10_goto_char (newBuffer c) x
  refine ⟨fun l r hc hx hr => ?_, fun hx hc => ?_⟩
  · have hl := congrArg List.length hc
    simp only [List.length_append] at hl
    have hrl := List.length_pos_iff.2 hr
    obtain ⟨a, w, z, t, e1, e2, e3, e4, e5, e6, b1, b2, h2, h3, h4⟩ := word_on
      { newBuffer c with point := max 1 (min x.toInt ((newBuffer c).content.length + 1)) } (l := l) (r := r) new hc
      (by show max 1 (min x.toInt ((c.length : Int) + 1)) = _; omega) hr
    refine ⟨a, w, z, t, e1, e2, e3, e4, e5, e6, ?_⟩
    rw [execute_steps h hlen (.cons rfl (by simp [isConstant]) h1 (.cons rfl (by simp) h2 (.cons rfl (by simp [isConstant]) h3 (.nil _)))) rfl, h4]
    rfl
  · have hpt : max 1 (min x.toInt ((newBuffer c).content.length + 1)) = (c.length : Int) + 1 := by
      show max 1 (min x.toInt ((c.length : Int) + 1)) = _; omega
    rw [hpt] at h1
    have h2 : call (b! "mark-word") [] { newBuffer c with point := (c.length : Int) + 1 } = (okEmpty, { newBuffer c with point := (c.length : Int) + 1 }) := by
      simp only [call_mark_word, builtinMarkWord, noArgs, dec64_succ]
      rw [if_pos (.inr (Int.le_refl _))]
      rfl
    have h3 := replace_on { newBuffer c with point := (c.length : Int) + 1 } (pre := []) (mid := c) (post := []) new (by simp [newBuffer]) rfl
      (by simp) hc
    rw [execute_steps h hlen (.cons rfl (by simp [isConstant]) h1 (.cons rfl (by simp) h2 (.cons rfl (by simp [isConstant]) h3 (.nil _)))) rfl]
    simp

end

/-- A script of the README, and the texts of the cases. -/
example : ScriptWritten "search-forward \"old\"\nmark-word\nreplace-region \"new\"\n".toList
    [.list [.sym (b! "search-forward"), .str (b! "old")], .list [.sym (b! "mark-word")], .list [.sym (b! "replace-region"), .str (b! "new")]] := by
  have h1 := CommandWritten.mk (name := "search-forward".toList) (by decide) (by unfold nameChar; decide) (not_number (by decide))
    (.str (n := 0) (plain_literal (cs := "old".toList) (by unfold PlainChar; decide)) .none)
  have h2 := CommandWritten.mk (name := "mark-word".toList) (by decide) (by unfold nameChar; decide) (not_number (by decide)) .none
  have h3 := CommandWritten.mk (name := "replace-region".toList) (by decide) (by unfold nameChar; decide) (not_number (by decide))
    (.str (n := 0) (plain_literal (cs := "new".toList) (by unfold PlainChar; decide)) .none)
  exact .next h1 (.inr rfl) (.next h2 (.inr rfl) (.next h3 (.inr rfl) .none))

example : FirstOccurrence (b! "old") (b! "the old one, old") (b! "the ") (b! " one, old") ∧
    @executeScript litExt (b! "the old one, old") (b! "search-forward \"old\"\nmark-word\nreplace-region \"new\"\n") = .ok (b! "the new one, old") ∧
    @executeScript litExt (b! "the older one") (b! "search-forward \"old\"\nmark-word\nreplace-region \"new\"\n") = .ok (b! "the new one") ∧
    @executeScript litExt (b! "1\n2\n3\n4\n5") (b! "goto-line 2; set-mark; goto-line 4; delete-region") = .ok (b! "1\n4\n5") ∧
    @executeScript litExt (b! "1\n2\n3") (b! "goto-line 2; set-mark; goto-line 99; delete-region") = .ok (b! "1\n3") ∧
    @executeScript litExt (b! "a\nfunc f() {\n}") (b! "search-forward \"func \"\nbeginning-of-line\ninsert \"// TODO\\n\"") = .ok (b! "a\n// TODO\nfunc f() {\n}") ∧
    @executeScript litExt (b! "x\nfunc main() {}\ny") (b! "search-forward \"func main\"\nbeginning-of-line\nset-mark\nsearch-forward \"}\"\nforward-char\ndelete-region")
      = .ok (b! "x\ny") := by
  refine ⟨⟨by decide, fun u v h => ?_⟩, by decide +kernel, by decide +kernel, by decide +kernel, by decide +kernel, by decide +kernel, by decide +kernel⟩
  refine Classical.byContradiction fun hlt => ?_
  have hlt : u.length < 4 := by simpa using hlt
  have h1 : (b! "the old one, old")[u.length]? = some 111 := by rw [h, List.append_assoc, List.getElem?_append_right (Nat.le_refl _)]; simp
  have h2 : ∀ i, i < 4 → (b! "the old one, old")[i]? ≠ some 111 := by decide
  exact h2 _ hlt h1

/-- The README's word recipe destroys the text if the word is its end. -/
theorem C81_false_word_at_end : @executeScript litExt (b! "keep this, replace old") (b! "search-forward \"old\"\nmark-word\nreplace-region \"new\"\n") =
    .ok (b! "new") := by decide +kernel

/-- The first example of docs/spec.md does not do what is said there: `doIt` stays and the parenthesis is lost. -/
theorem C81_false_spec_example : @executeScript litExt (b! "function doIt() {\n  console.log(\"doing the thing\")\n}\n")
      (b! "search-forward \"doIt\"\nset-mark\nsearch-forward \"(\"\nreplace-region \"helloWorld\"\nsearch-forward \"doing the thing\"\nreplace-match \"hello, world\"\n") =
    .ok (b! "function doIthelloWorld) {\n  console.log(\"hello, world\")\n}\n") := by decide +kernel

/-- There are no comments: a script with the comment lines of the README's examples fails. -/
theorem C81_false_comments : @executeScript litExt (b! "func f") (b! "# Find function definitions and add documentation\nsearch-forward \"func \"") =
    .err (b! "script execution failed: undefined-function \"#\" (at instruction 0: (# Find function definitions and add documentation), point=1, mark=1)") := by
  decide +kernel

/-- Single quotes, as in the README's example of changing a version, do not make strings. -/
theorem C81_false_single_quotes : @executeScript litExt (b! "{\"version\": \"1\"}") (b! "search-forward '\"version\":'") =
    .err (b! "script execution failed: unknown expression type (at instruction 0: (search-forward '\"version\":'), point=1, mark=1)") := by
  decide +kernel

/-- A single command is no JSON script, though the README's examples of --json are such. -/
theorem C81_false_json_command : ∃ e, @executeScriptWithFormat litExt (b! "a pattern") (b! "[\"search-forward\", \"pattern\"]") (b! "json") =
    .err (b! "parsing script: " ++ e) := ⟨_, rfl⟩

end Texted
