import Batteries.Data.List.Basic
import Verif.Lemmas.GoMotion
import Verif.Lemmas.GoQuery
import Verif.Lemmas.LitExt
/-
C93: the built-in functions as they are written in Go (Model/GoSource, translated from the text of /repo/edlisp/builtin_*.go) compute
what the definitions of the model say, within a bounded number of rounds of their loops.
-/
namespace Texted
open Spec

section
variable [Ext] {n : Nat} {args : List Value} {b : Buffer}

theorem Spec.Enough.count {name : Bytes} (h : Enough n name args b) (hm : name ∈ linewise) : ∀ c, optCount name args = .ok c → c.toNat < n := by
  intro c hc
  match args, h with
  | [], h => cases hc; have := h.one hm rfl; omega
  | [.num x], h => cases hc; exact h.lines hm x rfl
  | [.str _], _ => cases hc
  | [.sym _], _ => cases hc
  | [.list _], _ => cases hc
  | _ :: _ :: _, _ => simp [optCount] at hc

/-- **C93** Each of the fifty functions, run as it is written in Go with 64-bit ints, returns the value or the error, and leaves the
buffer, that the model's definition of that name says; it panics exactly if the definition says so. No loop evaluates its condition
more often than the text has bytes, plus one, except in the line commands, where it is once per line asked for. -/
theorem C93_table [LawfulExt] : List.Forall₂ (fun (p : Bytes × GoS) (q : Bytes × Builtin) => p.1 = q.1 ∧
    ∀ n args b, Machine args b → Enough n p.1 args b → Agrees (p.2.call n args b) (q.2 args b)) goTable builtinTable := by
  unfold goTable builtinTable
  repeat' apply List.Forall₂.cons
  · exact ⟨rfl, fun n args b h e => go_insert⟩
  · exact ⟨rfl, fun n args b h e => go_gotoChar h⟩
  · exact ⟨rfl, fun n args b h e => go_gotoLine h e.text⟩
  · exact ⟨rfl, fun n args b h e => go_searchForward h⟩
  · exact ⟨rfl, fun n args b h e => go_searchBackward h⟩
  · exact ⟨rfl, fun n args b h e => go_reSearchForward h⟩
  · exact ⟨rfl, fun n args b h e => go_endOfBuffer h⟩
  · exact ⟨rfl, fun n args b h e => go_setMark⟩
  · exact ⟨rfl, fun n args b h e => go_mark⟩
  · exact ⟨rfl, fun n args b h e => go_point⟩
  · exact ⟨rfl, fun n args b h e => go_lineNumberAtPos h e.text⟩
  · exact ⟨rfl, fun n args b h e => go_replaceMatch h⟩
  · exact ⟨rfl, fun n args b h e => go_deleteRegion h⟩
  · exact ⟨rfl, fun n args b h e => go_bufferSubstring h⟩
  · exact ⟨rfl, fun n args b h e => go_markWord h e.text⟩
  · exact ⟨rfl, fun n args b h e => go_replaceRegion h⟩
  · exact ⟨rfl, fun n args b h e => go_regionBeginning⟩
  · exact ⟨rfl, fun n args b h e => go_regionEnd⟩
  · exact ⟨rfl, fun n args b h e => go_forwardChar h⟩
  · exact ⟨rfl, fun n args b h e => go_length⟩
  · exact ⟨rfl, fun n args b h e => go_substring⟩
  · exact ⟨rfl, fun n args b h e => go_stringMatch⟩
  · exact ⟨rfl, fun n args b h e => go_backwardChar⟩
  · exact ⟨rfl, fun n args b h e => go_beginningOfBuffer⟩
  · exact ⟨rfl, fun n args b h e => go_beginningOfLine h e.text⟩
  · exact ⟨rfl, fun n args b h e => go_endOfLine h e.text⟩
  · exact ⟨rfl, fun n args b h e => go_bufferSize⟩
  · exact ⟨rfl, fun n args b h e => go_pointMax h⟩
  · exact ⟨rfl, fun n args b h e => go_pointMin⟩
  · exact ⟨rfl, fun n args b h e => go_currentColumn h e.text⟩
  · exact ⟨rfl, fun n args b h e => go_upcase⟩
  · exact ⟨rfl, fun n args b h e => go_downcase⟩
  · exact ⟨rfl, fun n args b h e => go_capitalize⟩
  · exact ⟨rfl, fun n args b h e => go_concat h⟩
  · exact ⟨rfl, fun n args b h e => go_setMarkCommand⟩
  · exact ⟨rfl, fun n args b h e => go_exchange⟩
  · exact ⟨rfl, fun n args b h e => go_markWholeBuffer h⟩
  · exact ⟨rfl, fun n args b h e => go_deleteChar h⟩
  · exact ⟨rfl, fun n args b h e => go_deleteBackwardChar h⟩
  · exact ⟨rfl, fun n args b h e => go_forwardWord h e.text⟩
  · exact ⟨rfl, fun n args b h e => go_backwardWord h e.text⟩
  · exact ⟨rfl, fun n args b h e => go_lookingAt h⟩
  · exact ⟨rfl, fun n args b h e => go_lookingBack h⟩
  · exact ⟨rfl, fun n args b h e => go_markLine h e.text (e.count (by decide))⟩
  · exact ⟨rfl, fun n args b h e => go_deleteLine h e.text (e.count (by decide))⟩
  · exact ⟨rfl, fun n args b h e => go_killLine h e.text (e.count (by decide))⟩
  · exact ⟨rfl, fun n args b h e => go_killWord h e.text⟩
  · exact ⟨rfl, fun n args b h e => go_backwardKillWord h e.text⟩
  · exact ⟨rfl, fun n args b h e => go_reSearchBackward h⟩
  · exact ⟨rfl, fun n args b h e => go_replaceRegexpInString⟩
  · exact .nil

/-- **C93** Allowing a loop more rounds never changes a call that ended. -/
theorem C93_more (f : GoS) {m m' : Nat} (hm : m ≤ m') (h : f.call m args b ≠ .spin) : f.call m' args b = f.call m args b :=
  exec_more f m m' _ hm h

/-- Enough rounds. -/
def plenty (args : List Value) (b : Buffer) : Nat := b.content.length + 2 + match args with | [.num x] => x.toInt.toNat | _ => 0

theorem plenty_enough (name : Bytes) : Enough (plenty args b) name args b where
  text := by unfold plenty; omega
  one := fun _ _ => by unfold plenty; omega
  lines := fun _ x e => by subst e; simp only [plenty]; omega

/-- **C93** However few rounds are allowed, every function either has not finished or has done what the definition says: it never gets
stuck on an expression without a meaning, and never ends differently because it was stopped. -/
theorem C93_meaning [LawfulExt] {name : Bytes} {f : GoS} (hf : (name, f) ∈ goTable) (h : Machine args b) (n : Nat) :
    ∃ g, (name, g) ∈ builtinTable ∧ (f.call n args b = .spin ∨ Agrees (f.call n args b) (g args b)) := by
  have key : ∀ {l : List (Bytes × GoS)} {l' : List (Bytes × Builtin)}, List.Forall₂ (fun (p : Bytes × GoS) (q : Bytes × Builtin) => p.1 = q.1 ∧
      ∀ n args b, Machine args b → Enough n p.1 args b → Agrees (p.2.call n args b) (q.2 args b)) l l' → ∀ {name f}, (name, f) ∈ l →
      ∃ g, (name, g) ∈ l' ∧ ∀ n args b, Machine args b → Enough n name args b → Agrees (f.call n args b) (g args b) := by
    intro l l' hl
    induction hl with
    | nil => intro name f hm; cases hm
    | @cons p q l l' hpq hl ih =>
      intro name f hm
      rcases List.mem_cons.mp hm with rfl | hm
      · exact ⟨q.2, by rw [show name = q.1 from hpq.1]; exact List.mem_cons_self, hpq.2⟩
      · obtain ⟨g, h1, h2⟩ := ih hm
        exact ⟨g, List.mem_cons_of_mem _ h1, h2⟩
  obtain ⟨g, hg, hag⟩ := key C93_table hf
  refine ⟨g, hg, ?_⟩
  by_cases hs : f.call n args b = .spin
  · exact .inl hs
  · refine .inr ?_
    have e : Enough (n + plenty args b) name args b := by
      have p := plenty_enough (args := args) (b := b) name
      exact ⟨by have := p.text; omega, fun h h' => by have := p.one h h'; omega, fun h x h' => by have := p.lines h x h'; omega⟩
    rw [← C93_more f (Nat.le_add_right n (plenty args b)) hs]
    exact hag _ args b h e

/-- **C93** `Buffer.Insert` as written in Go leaves the buffer the model's `Buffer.insert` says (so the fifty functions may use it). -/
theorem C93_insert {text : Bytes} {st : GoSt} (hc : st.buf.content.length < 4611686018427387904) (ht : text.length < 4611686018427387904)
    (hp : minInt ≤ st.buf.point ∧ st.buf.point ≤ maxInt) (hv : st.vars .text = .str text) :
    ∃ st', goInsertMethod.exec n st = .next st' ∧ st'.buf = st.buf.insert text := go_insertMethod hc ht hp hv

/-- **C93** `isLetter` as written in Go says what the model's `isLetter` says. -/
theorem C93_isLetter {ch : UInt8} {st : GoSt} (hv : st.vars .ch = .byte ch) :
    goIsLetter.exec n st = .ret (.bool (isLetter ch)) .nil st.buf := go_isLetter hv

/-! ### How long the line commands take -/

theorem exec_line_or {st : GoSt} {c : Bytes} {pos : Int} (hl : c.length < 4611686018427387904)
    (hc : st.vars .content = .str c) (hv : st.vars .lineEnd = .int pos) :
    let o := (GoS.seq (.while (.bin .and (.bin .lt (.var .lineEnd) (.len (.var .content))) (.bin .ne (.index (.var .content) (.var .lineEnd)) (.char 10))) .skip
      (.set .lineEnd (.bin .add (.var .lineEnd) (.int 1)))) <|
    (.if_ (.bin .and (.bin .lt (.var .lineEnd) (.len (.var .content))) (.bin .eq (.index (.var .content) (.var .lineEnd)) (.char 10)))
      (.set .lineEnd (.bin .add (.var .lineEnd) (.int 1)))
      .skip)).exec n st
    o = .spin ∨ o = goMove st .lineEnd (lineStep c pos) := by
  intro o
  by_cases hs : o = .spin
  · exact .inl hs
  · right
    rw [← exec_line (n := n + c.length + 1) hl (by omega) hc hv]
    exact (exec_more _ n (n + c.length + 1) st (by omega) hs).symm

theorem loop_back_or {x : GoVar} {e : GoE} {stop : UInt8 → Bool} {c : Bytes} {st : GoSt} {pos : Int}
    (ht : Tests e x prev64 stop) (hx : x ≠ .content)
    (hl : c.length < 4611686018427387904) (hp' : pos ≤ maxInt) (hc : st.vars .content = .str c) (hv : st.vars x = .int pos) :
    let o := (GoS.while (.bin .and (.bin .gt (.var x) (.int 0)) e) .skip (.set x (.bin .sub (.var x) (.int 1)))).exec n st
    o = .spin ∨ o = goMove st x (scanBack c stop pos) := by
  intro o
  by_cases hs : o = .spin
  · exact .inl hs
  · right
    rw [← loop_back (n := n + c.length + 1) ht hx hl (by omega) hp' hc hv]
    exact (exec_more _ n (n + c.length + 1) st (by omega) hs).symm

theorem lines_spin {c : Bytes} {count : Int} (hl : c.length < 4611686018427387904) (hcount : count ≤ maxInt) :
    ∀ (m : Nat) (st : GoSt) (pos i : Int), Counts c count .lineEnd st pos i → 0 ≤ pos → pos ≤ c.length → 0 ≤ i → (m : Int) ≤ count - i →
      goLoop (fun st => (GoE.bin .lt (.var .i) (.var .count)).eval st)
        (fun st => ((GoS.seq (.while (.bin .and (.bin .lt (.var .lineEnd) (.len (.var .content))) (.bin .ne (.index (.var .content) (.var .lineEnd)) (.char 10))) .skip
      (.set .lineEnd (.bin .add (.var .lineEnd) (.int 1)))) <|
    (.if_ (.bin .and (.bin .lt (.var .lineEnd) (.len (.var .content))) (.bin .eq (.index (.var .content) (.var .lineEnd)) (.char 10)))
      (.set .lineEnd (.bin .add (.var .lineEnd) (.int 1)))
      .skip)).exec n st).andThen fun st => (GoS.set .i (.bin .add (.var .i) (.int 1))).exec n st) m st = .spin := by
  intro m
  induction m with
  | zero => intros; rfl
  | succ m ih =>
    intro st pos i h hp hp' hi hm
    rw [goLoop_succ]
    have hcond : (GoE.bin .lt (.var .i) (.var .count)).eval st = .ok (.bool true) := by
      show GoOp.apply .lt (st.vars .i) (st.vars .count) = _
      rw [h.i, h.count, lt_ints]
      congr 2
      rw [iLt_true]; omega
    rw [hcond, GoR.ok_run, goIf_bool, if_pos rfl]
    rcases exec_line_or (n := n) hl h.content h.pos with e | e
    · rw [e]; rfl
    · obtain ⟨k, rfl⟩ := Int.eq_ofNat_of_zero_le hp
      obtain ⟨q, hq, hn⟩ := lineStep_spec c k (by omega)
      have hqr := hn.le
      rw [e, hq]
      simp only [goMove, GoOut.next_andThen]
      rw [exec_i (i := i) (by rw [GoSt.set_vars, if_neg (by decide)]; exact h.i) (by omega) (by omega)]
      simp only [GoOut.next_andThen]
      exact ih _ q (i + 1) (h.next (by decide) (by decide) (by decide) (i + 1)) (by omega) (by omega) (by omega) (by omega)

/-- **C93** The line commands take as many rounds as lines are asked for, however short the text is: with point inside the text, a call
of mark-line, delete-line or kill-line with the count `x` has not finished after `n` rounds for any `n` up to `x`. -/
theorem C93_line_commands {name : Bytes} {f : GoS} (hf : (name, f) ∈ goTable) (hname : name ∈ linewise) {x : F64} (hx : x.toInt ≠ 1)
    (h : Machine [.num x] b) (hp : 1 ≤ b.point) (hp' : b.point ≤ b.content.length) (hn : (n : Int) ≤ x.toInt) :
    f.call n [.num x] b = .spin := by
  have hc := h.content
  have hr := F64.toInt_range x
  have hd : dec64 b.point = b.point - 1 := by unfold dec64; rw [if_neg (by omega)]
  have hw : wrap64 (b.point - 1) = b.point - 1 := wrap64_eq (by omega) (by omega)
  have a₀ : goAt [Value.num x] 0 = some (Value.num x) := rfl
  have l₁ : (([Value.num x].length : Nat) : Int) = 1 := rfl
  have l₂ : ¬ ((1 : Int) < 1) := by omega
  obtain ⟨k, hk⟩ := Int.eq_ofNat_of_zero_le (show 0 ≤ b.point - 1 by omega)
  have hsb : ∃ l, scanBack b.content (· == nl) (b.point - 1) = some l := by
    rw [hk]; obtain ⟨l, hl, _⟩ := scanBack_line b.content k (by omega); exact ⟨l, hl⟩
  have which : f = goMarkLine ∨ f = goDeleteLine ∨ f = goKillLine := by
    unfold linewise at hname
    simp only [List.mem_cons, List.not_mem_nil, or_false] at hname
    unfold goTable at hf
    rcases hname with rfl | rfl | rfl
    · left; simpa [List.mem_cons, Prod.mk.injEq] using hf
    · right; left; simpa [List.mem_cons, Prod.mk.injEq] using hf
    · right; right; simpa [List.mem_cons, Prod.mk.injEq] using hf
  rcases which with rfl | rfl | rfl
  · unfold goMarkLine
    go_run [a₀, l₁, l₂, hw]
    rcases loop_back_or (n := n) (c := b.content) (pos := b.point - 1) (tests_back_line .lineStart) (by decide) hc (by omega)
      (st := ((((((goStart [.num x] b).set .count (.int 1)).set .count (.int x.toInt)).set .content (.str b.content)).set .pos (.int (b.point - 1))).set .lineStart (.int (b.point - 1)))) rfl rfl with e | e
    · rw [e]; rfl
    · obtain ⟨l, hl⟩ := hsb
      rw [e, hl]
      unfold goMove
      go_run []
      rw [exec_while]
      rw [lines_spin (n := n) (c := b.content) (count := x.toInt) hc hr.2 n _ (b.point - 1) 0 counts (by omega) (by omega) (by omega) (by omega)]
      rfl
  · unfold goDeleteLine
    go_run [a₀, l₁, l₂, hw]
    rcases loop_back_or (n := n) (c := b.content) (pos := b.point - 1) (tests_back_line .lineStart) (by decide) hc (by omega)
      (st := ((((((goStart [.num x] b).set .count (.int 1)).set .count (.int x.toInt)).set .content (.str b.content)).set .pos (.int (b.point - 1))).set .lineStart (.int (b.point - 1)))) rfl rfl with e | e
    · rw [e]; rfl
    · obtain ⟨l, hl⟩ := hsb
      rw [e, hl]
      unfold goMove
      go_run []
      rw [exec_while]
      rw [lines_spin (n := n) (c := b.content) (count := x.toInt) hc hr.2 n _ (b.point - 1) 0 counts (by omega) (by omega) (by omega) (by omega)]
      rfl
  · have h₃ : ¬ (b.point - 1 < 0 ∨ (b.content.length : Int) ≤ b.point - 1) := by omega
    unfold goKillLine
    go_run [a₀, l₁, l₂, hw, h₃, hx]
    rw [exec_while]
    rw [lines_spin (n := n) (c := b.content) (count := x.toInt) hc hr.2 n _ (b.point - 1) 0 counts (by omega) (by omega) (by omega) (by omega)]
    rfl

end

/-! ### Concrete cases -/

/-- A buffer as `texted` makes it, with arguments as a script has them, meets the conditions. -/
theorem machine_lit {text : Bytes} {args : List Value} (h : text.length < 4611686018427387904) (h₁ : args.length < 4611686018427387904)
    (h₂ : ∀ s, Value.str s ∈ args → s.length < 4611686018427387904) : @Machine litExt args (newBuffer text) := by
  letI := litExt
  refine ⟨h, h₁, h₂, ?_, ⟨by simp [newBuffer], by simp [newBuffer]⟩, ⟨by simp [newBuffer], by simp [newBuffer]⟩, ⟨by simp [newBuffer], by simp [newBuffer]⟩, ⟨by simp [newBuffer], by simp [newBuffer]⟩⟩
  intro p re s hc _
  cases hc
  show (((indexOf p s).map fun i => (i, i + p.length)).toList).length < _
  cases indexOf p s <;> simp

/-- The Go text of delete-line, forward-word and goto-line at work. -/
example [Ext] : goDeleteLine.call 20 [] { newBuffer (b! "ab\ncd") with point := 2 } = .ret (.val (.str [])) .nil (newBuffer (b! "cd")) := by rfl
example [Ext] : goForwardWord.call 20 [] (newBuffer (b! "ab cd")) = .ret (.val (.str [])) .nil { newBuffer (b! "ab cd") with point := 3 } := by rfl
example [Ext] : goForwardWord.call 20 [.str []] (newBuffer (b! "ab cd")) = .ret .nil (.err (b! "forward-word expects a number argument")) (newBuffer (b! "ab cd")) := by rfl

/-- It panics where the model says so: forward-word with point 0 (which set-mark-command 0 and exchange-point-and-mark lead to). -/
example [Ext] : goForwardWord.call 20 [] { newBuffer (b! "ab cd") with point := 0 } = .panic ∧
    (builtinForwardWord [] { newBuffer (b! "ab cd") with point := 0 }).1 = .panic := ⟨rfl, rfl⟩

/-- `(kill-line 1099511627776)` on five bytes: not finished after a million rounds. -/
example : letI := litExt
    goKillLine.call 1000000 [.num (.fin false 1 40)] (newBuffer (b! "ab cd")) = .spin := by
  letI := litExt
  refine C93_line_commands (name := b! "kill-line") (f := goKillLine) (x := .fin false 1 40) (b := newBuffer (b! "ab cd")) ?_ (by decide) (by decide +kernel) (machine_lit (by decide) (by decide) ?_) (by decide) (by decide) (by decide +kernel)
  · simp [goTable]
  · simp

end Texted
