import Verif.Lemmas.TgSort
/-
The Go text of the documentation of one function: statements that write one piece of text after the other.
-/
set_option linter.unusedSectionVars false
set_option linter.unusedSimpArgs false
set_option linter.unusedVariables false
namespace Texted
variable [Ext]

/-- A statement that writes `t`: what has been written is described by `P`. -/
def Does (x : TgX) (n : Nat) (call : TgFn → List TgV → TgW → TgOut) (c : TgS) (P : Bytes → TgSt → Prop) (t : Bytes) : Prop :=
  ∀ s st, P s st → ∃ st', c.exec x n call st = .next st' ∧ P (s ++ t) st'

section
variable {x : TgX} {n : Nat} {call : TgFn → List TgV → TgW → TgOut} {P : Bytes → TgSt → Prop}

theorem Does.congr {c : TgS} {t u : Bytes} (h : Does x n call c P t) (e : t = u) : Does x n call c P u := e ▸ h

theorem Does.skip : Does x n call .skip P [] := fun s st h => ⟨st, rfl, by rw [List.append_nil]; exact h⟩

theorem Does.seq {a b : TgS} {t u : Bytes} (ha : Does x n call a P t) (hb : Does x n call b P u) : Does x n call (.seq a b) P (t ++ u) := by
  intro s st h
  obtain ⟨st₁, e₁, h₁⟩ := ha s st h
  obtain ⟨st₂, e₂, h₂⟩ := hb _ st₁ h₁
  refine ⟨st₂, ?_, by rw [← List.append_assoc]; exact h₂⟩
  rw [tgexec_seq, e₁]
  exact e₂

theorem Does.ite {c : TgE} {a b : TgS} {t u : Bytes} (p : Prop) [Decidable p] (hc : ∀ s st, P s st → c.eval x st = .ok (.bool (decide p)))
    (ha : p → Does x n call a P t) (hb : ¬ p → Does x n call b P u) : Does x n call (.if_ c a b) P (if p then t else u) := by
  intro s st h
  by_cases hp : p
  · obtain ⟨st', e, h'⟩ := ha hp s st h
    refine ⟨st', ?_, by rw [if_pos hp]; exact h'⟩
    rw [tgexec_if_, hc s st h, decide_eq_true hp]
    exact e
  · obtain ⟨st', e, h'⟩ := hb hp s st h
    refine ⟨st', ?_, by rw [if_neg hp]; exact h'⟩
    rw [tgexec_if_, hc s st h, decide_eq_false hp]
    exact e

/-- A loop over a slice; `Q` is what holds in a round. -/
theorem Does.range {α : Type} {i y : TgVar} {e : TgE} {body : TgS} (mk : α → TgV) (v : TgV) (l : List α) (g : Nat → α → Bytes)
    (Q : Nat → α → Bytes → TgSt → Prop) (he : ∀ s st, P s st → e.eval x st = .ok v) (hv : v.items = .ok (l.map mk))
    (hin : ∀ k a s st, P s st → Q k a s ((st.set i (.int k)).set y (mk a))) (hout : ∀ k a s st, Q k a s st → P s st)
    (hb : ∀ k a, Does x n call body (Q k a) (g k a)) : Does x n call (.range i y e body) P (l.mapIdx g).flatten := by
  have key : ∀ (l : List α) (k : Nat) s st, P s st → ∃ st', tgRange (fun st => body.exec x n call st) i y k (l.map mk) st = .next st' ∧
      P (s ++ (l.mapIdx fun j => g (k + j)).flatten) st' := by
    intro l
    induction l with
    | nil => intro k s st h; exact ⟨st, rfl, by rw [List.mapIdx_nil, List.flatten_nil, List.append_nil]; exact h⟩
    | cons a l ih =>
      intro k s st h
      obtain ⟨st₁, e₁, h₁⟩ := hb k a _ _ (hin k a s st h)
      obtain ⟨st₂, e₂, h₂⟩ := ih (k + 1) _ st₁ (hout _ _ _ _ h₁)
      refine ⟨st₂, ?_, ?_⟩
      · rw [List.map_cons, tgRange_cons, e₁]
        exact e₂
      · rw [List.mapIdx_cons, List.flatten_cons, ← List.append_assoc]
        have : (fun j => g (k + 1 + j)) = fun j => g (k + (j + 1)) := by funext j; congr 1; omega
        rw [this] at h₂
        exact h₂
  intro s st h
  obtain ⟨st', e', h'⟩ := key l 0 s st h
  refine ⟨st', ?_, ?_⟩
  · rw [tgexec_range, he s st h, tgok_run, hv, tgok_run]
    exact e'
  · simpa using h'

theorem mapIdx_flatMap {α : Type} (f : α → Bytes) (l : List α) : (l.mapIdx fun _ => f).flatten = l.flatMap f := by
  induction l with
  | nil => rfl
  | cons a l ih => rw [List.mapIdx_cons, List.flatten_cons, List.flatMap_cons]; exact congrArg _ ih

theorem Does.then {a b : TgS} {t s : Bytes} {st : TgSt} {o : TgOut} (ha : Does x n call a P t) (h : P s st) (hb : ∀ st', P (s ++ t) st' → b.exec x n call st' = o) :
    (TgS.seq a b).exec x n call st = o := by
  obtain ⟨st₁, e₁, h₁⟩ := ha s st h
  rw [tgexec_seq, e₁]
  exact hb st₁ h₁

theorem next_then {a b : TgS} {st st' : TgSt} {o : TgOut} (ha : a.exec x n call st = .next st') (hb : b.exec x n call st' = o) : (TgS.seq a b).exec x n call st = o := by
  rw [tgexec_seq, ha]
  exact hb

/-- `output.WriteString(e)`. -/
theorem Does.write {e : TgE} {t : Bytes} (he : ∀ s st, P s st → e.eval x st = .ok (.str t)) (ho : ∀ s st, P s st → st.vars .output = .builder s)
    (hp : ∀ s st, P s st → P (s ++ t) (st.set .output (.builder (s ++ t)))) :
    Does x n call (.set .output (.call .writeString (.cons (.var .output) (.cons e .nil)))) P t := by
  intro s st h
  refine ⟨_, ?_, hp s st h⟩
  tg [he s st h, ho s st h]

/-- `fmt.Printf(…)`. -/
theorem Does.print {e : TgE} {t : Bytes} (he : ∀ s st, P s st → e.eval x st = .ok (.str t))
    (hp : ∀ s st, P s st → P (s ++ t) { st with w := st.w.say t }) : Does x n call (.print e) P t := by
  intro s st h
  refine ⟨_, ?_, hp s st h⟩
  tg [he s st h]
  rfl

/-- An assignment that nothing that has been written depends on. -/
theorem Does.set {y : TgVar} {e : TgE} {v : TgV} (he : ∀ s st, P s st → e.eval x st = .ok v) (hp : ∀ s st, P s st → P s (st.set y v)) : Does x n call (.set y e) P [] := by
  intro s st h
  refine ⟨st.set y v, ?_, by rw [List.append_nil]; exact hp s st h⟩
  tg [he s st h]
end

theorem decide_of {p q : Prop} [i : Decidable p] [j : Decidable q] (h : p ↔ q) : decide p = decide q := by
  by_cases hp : p
  · rw [decide_eq_true hp, decide_eq_true (h.1 hp)]
  · rw [decide_eq_false hp, decide_eq_false (fun hq => hp (h.2 hq))]
theorem decide_of_not {p q : Prop} [i : Decidable p] [j : Decidable q] (h : ¬ p ↔ q) : (!decide p) = decide q := by
  by_cases hp : p
  · rw [decide_eq_true hp, decide_eq_false (fun hq => h.2 hq hp)]; rfl
  · rw [decide_eq_false hp, decide_eq_true (h.1 hp)]; rfl
theorem some_length {α : Type} (l : List α) : 0 < (l.length : Int) ↔ l ≠ [] := by cases l <;> simp <;> omega
theorem zero_length {α : Type} (l : List α) : (l.length : Int) = 0 ↔ l = [] := by cases l <;> simp <;> omega
theorem ok_bool {a b : Bool} (h : a = b) : GoR.ok (TgV.bool a) = GoR.ok (TgV.bool b) := h ▸ rfl

/-- The state while the text of a function is written (/repo/tools/texted_doc.go:112-165). -/
def Writing (d : FunctionDoc) (w : TgW) (s : Bytes) (st : TgSt) : Prop := st.vars .output = .builder s ∧ st.vars .doc = .doc d ∧ st.w = w

/-- … and one of its parameters, or examples. -/
def WritingAt (d : FunctionDoc) (w : TgW) (y : TgVar) (v : TgV) (s : Bytes) (st : TgSt) : Prop := Writing d w s st ∧ st.vars y = v

macro "writing" : tactic => `(tactic| (first
  | (rintro k a s st ⟨⟨h₁, h₂, h₃⟩, h₄⟩; exact ⟨h₁, h₂, h₃⟩)
  | (rintro k a s st ⟨h₁, h₂, h₃⟩; refine ⟨⟨?_, ?_, ?_⟩, ?_⟩ <;> tg [h₁, h₂, h₃] <;> done)
  | (rintro s st ⟨⟨h₁, h₂, h₃⟩, h₄⟩; refine ⟨⟨?_, ?_, ?_⟩, ?_⟩ <;> tg [h₁, h₂, h₃, h₄] <;> done)
  | (rintro s st ⟨h₁, h₂, h₃⟩; refine ⟨?_, ?_, ?_⟩ <;> tg [h₁, h₂, h₃] <;> done)
  | (rintro s st ⟨⟨h₁, h₂, h₃⟩, h₄⟩; exact h₁)
  | (rintro s st ⟨h₁, h₂, h₃⟩; exact h₁)
  | (rintro s st ⟨⟨h₁, h₂, h₃⟩, h₄⟩; tg [h₁, h₂, h₃, h₄, List.append_nil]; done)
  | (rintro s st ⟨h₁, h₂, h₃⟩; tg [h₁, h₂, h₃, List.append_nil]; done)
  | (rintro s st ⟨⟨h₁, h₂, h₃⟩, h₄⟩; tg [h₁, h₂, h₃, h₄]; exact ok_bool (decide_of_not Iff.rfl))
  | (rintro s st ⟨h₁, h₂, h₃⟩; tg [h₁, h₂, h₃]; exact ok_bool (decide_of_not Iff.rfl))
  | (rintro s st ⟨h₁, h₂, h₃⟩; tg [h₁, h₂, h₃]; exact ok_bool (decide_of (some_length _)))))

theorem formatFunctionDoc_tg (x : TgX) (d : FunctionDoc) (n k : Nat) (w : TgW) :
    tgRun x n (k + 1) .formatFunctionDoc [.doc d] w = .ret [.str (formatFunctionDoc d)] w := by
  rw [tgRun_succ _ _ _ _ _ _ _ rfl]
  simp only [TgFn.body, tgFormatFunctionDoc]
  rw [tgexec_seq, tgexec_set, tgeval_noText, tgok_run, tgnext_andThen]
  refine Does.then (P := Writing d w) (s := []) (t := b! "# " ++ (d.name ++ b! "\n\n")) (Does.write (by writing) (by writing) (by writing)) ⟨rfl, rfl, rfl⟩ fun st h => ?_
  refine Does.then (Does.ite (d.summary ≠ []) (t := b! "**" ++ (d.summary ++ b! "**\n\n")) (u := []) (by writing)
    (fun _ => Does.write (by writing) (by writing) (by writing)) fun _ => Does.skip) h fun st h => ?_
  refine Does.then (Does.ite (d.description ≠ []) (t := d.description ++ b! "\n\n") (u := []) (by writing)
    (fun _ => Does.write (by writing) (by writing) (by writing)) fun _ => Does.skip) h fun st h => ?_
  refine Does.then (Does.ite (d.parameters ≠ []) (t := b! "## Parameters\n\n" ++ (d.parameters.flatMap paramText ++ b! "\n")) (u := []) (by writing)
    (fun _ => Does.seq (Does.write (by writing) (by writing) (by writing))
      (Does.seq (Does.congr (Does.range .param (.params d.parameters) d.parameters (fun _ => paramText) (fun _ p => WritingAt d w .param (.param p))
        (by writing) rfl (by writing) (by writing) fun _ p => ?_) (mapIdx_flatMap ..)) (Does.write (by writing) (by writing) (by writing))))
    fun _ => Does.skip) h fun st h => ?_
  · refine Does.congr (Does.seq (Does.write (t := b! "- **" ++ (p.name ++ (b! "** (" ++ (p.type ++ b! ")")))) (by writing) (by writing) (by writing))
      (Does.seq (Does.ite (p.description ≠ []) (t := b! ": " ++ p.description) (u := []) (by writing)
        (fun _ => Does.write (by writing) (by writing) (by writing)) fun _ => Does.skip) (Does.write (t := b! "\n") (by writing) (by writing) (by writing)))) ?_
    simp only [paramText, List.append_assoc]; rfl
  refine Does.then (Does.ite (d.examples ≠ []) (t := b! "## Examples\n\n" ++ d.examples.flatMap exampleText) (u := []) (by writing)
    (fun _ => Does.seq (Does.write (by writing) (by writing) (by writing))
      (Does.congr (Does.range .example (.examples d.examples) d.examples (fun _ => exampleText) (fun _ p => WritingAt d w .example (.example p))
        (by writing) rfl (by writing) (by writing) fun _ p => ?_) (mapIdx_flatMap ..)))
    fun _ => Does.skip) h fun st h => ?_
  · refine Does.congr (Does.seq (Does.ite (p.description ≠ []) (t := p.description ++ b! "\n\n") (u := []) (by writing)
        (fun _ => Does.write (by writing) (by writing) (by writing)) fun _ => Does.skip)
      (Does.seq (Does.write (t := b! "```\n") (by writing) (by writing) (by writing))
      (Does.seq (Does.write (t := p.input ++ b! "\n") (by writing) (by writing) (by writing))
      (Does.write (t := b! "```\n\n") (by writing) (by writing) (by writing))))) ?_
    simp only [exampleText, List.append_assoc]
  refine Does.then (Does.ite (d.category ≠ []) (t := b! "**Category:** " ++ (d.category ++ b! "\n\n")) (u := []) (by writing)
    (fun _ => Does.write (by writing) (by writing) (by writing)) fun _ => Does.skip) h fun st h => ?_
  refine Does.then (Does.ite (d.seeAlso ≠ []) (t := b! "**See also:** " ++ (joinWith b! ", " d.seeAlso ++ b! "\n")) (u := []) (by writing)
    (fun _ => Does.seq (Does.write (by writing) (by writing) (by writing)) (Does.seq (Does.write (by writing) (by writing) (by writing))
      (Does.write (by writing) (by writing) (by writing)))) fun _ => Does.skip) h fun st h => ?_
  obtain ⟨h₁, h₂, h₃⟩ := h
  tg [h₁, h₂, h₃]
  simp only [formatFunctionDoc, List.append_assoc, List.nil_append]

theorem getDocumentation_tg (x : TgX) (name : Bytes) (n k : Nat) (w : TgW) :
    tgRun x n (k + 1) .getDocumentation [.str name] w =
      .ret (match w.reg.lookup name with | some d => [.doc d, .bool true] | none => [.doc ⟨[], [], [], [], [], [], []⟩, .bool false]) w := by
  rw [tgRun_succ _ _ _ _ _ _ _ rfl]
  simp only [TgFn.body, tgGetDocumentation]
  cases h : w.reg.lookup name <;> tg [h, tgFound]

/-- The state while the command shows a function (/repo/commands/doc.go:57-117). -/
def Showing (d : FunctionDoc) (w : TgW) (s : Bytes) (st : TgSt) : Prop := st.vars .doc = .doc d ∧ st.w = w.say s

macro "showing" : tactic => `(tactic| (first
  | (rintro k a s st ⟨⟨h₁, h₂⟩, h₃⟩; exact ⟨h₁, h₂⟩)
  | (rintro k a s st ⟨⟨h₁, h₂⟩, h₃, h₄⟩; exact ⟨h₁, h₂⟩)
  | (rintro k a s st ⟨h₁, h₂⟩; refine ⟨⟨?_, ?_⟩, ?_⟩ <;> tg [h₁, h₂] <;> done)
  | (rintro k a s st ⟨h₁, h₂⟩; refine ⟨⟨?_, ?_⟩, ?_, ?_⟩ <;> tg [h₁, h₂] <;> done)
  | (rintro s st ⟨⟨h₁, h₂⟩, h₃⟩; refine ⟨⟨?_, ?_⟩, ?_⟩ <;> tg [h₁, h₂, h₃, say_say] <;> done)
  | (rintro s st ⟨⟨h₁, h₂⟩, h₃, h₄⟩; refine ⟨⟨?_, ?_⟩, ?_, ?_⟩ <;> tg [h₁, h₂, h₃, h₄, say_say] <;> done)
  | (rintro s st ⟨h₁, h₂⟩; refine ⟨?_, ?_⟩ <;> tg [h₁, h₂, say_say] <;> done)
  | (rintro s st ⟨⟨h₁, h₂⟩, h₃⟩; tg [h₁, h₂, h₃, List.append_nil]; done)
  | (rintro s st ⟨⟨h₁, h₂⟩, h₃, h₄⟩; tg [h₁, h₂, h₃, h₄, List.append_nil]; done)
  | (rintro s st ⟨h₁, h₂⟩; tg [h₁, h₂, List.append_nil]; done)
  | (rintro s st ⟨⟨h₁, h₂⟩, h₃⟩; tg [h₁, h₂, h₃]; exact ok_bool (decide_of_not Iff.rfl))
  | (rintro s st ⟨⟨h₁, h₂⟩, h₃, h₄⟩; tg [h₁, h₂, h₃, h₄]; exact ok_bool (decide_of_not Iff.rfl))
  | (rintro s st ⟨h₁, h₂⟩; tg [h₁, h₂]; exact ok_bool (decide_of_not Iff.rfl))
  | (rintro s st ⟨h₁, h₂⟩; tg [h₁, h₂]; exact ok_bool (decide_of (some_length _)))))

theorem joinWith_cons {α : Type} (sep : Bytes) (f : α → Bytes) : ∀ (a : α) (l : List α), f a ++ (l.flatMap fun a => sep ++ f a) = joinWith sep ((a :: l).map f)
  | a, [] => by simp [joinWith]
  | a, b :: l => by
    have ih := joinWith_cons sep f b l
    rw [List.flatMap_cons, List.append_assoc, ih]
    show f a ++ (sep ++ joinWith sep ((b :: l).map f)) = f a ++ sep ++ joinWith sep ((b :: l).map f)
    rw [List.append_assoc]

/-- The examples, one after the other, a newline between them. -/
theorem examples_joined (l : List ExampleDoc) :
    (l.mapIdx fun k a => (if 0 < k then b! "\n" else []) ++ cmdExampleText a).flatten = joinWith b! "\n" (l.map cmdExampleText) := by
  cases l with
  | nil => rfl
  | cons a l =>
    rw [List.mapIdx_cons, List.flatten_cons]
    have : ∀ l : List ExampleDoc, (l.mapIdx fun k a => (if 0 < k + 1 then b! "\n" else []) ++ cmdExampleText a).flatten = l.flatMap fun a => b! "\n" ++ cmdExampleText a := by
      intro l
      have : (fun (k : Nat) a => (if 0 < k + 1 then b! "\n" else []) ++ cmdExampleText a) = fun _ a => b! "\n" ++ cmdExampleText a := by
        funext k a; rw [if_pos (Nat.succ_pos k)]
      rw [this, mapIdx_flatMap]
    rw [this, if_neg (Nat.lt_irrefl 0), List.nil_append]
    exact joinWith_cons _ cmdExampleText a l

theorem showFunctionDoc_tg (x : TgX) (name : Bytes) (n k : Nat) (w : TgW) :
    tgRun x n (k + 2) .showFunctionDoc [.str name] w =
      (match showFunctionDoc w.reg name with | .ok s => .ret [.nil] (w.say s) | .error e => .ret [.err e] w) := by
  have hg := getDocumentation_tg x name n k w
  rw [tgRun_succ _ _ _ _ _ _ _ rfl]
  cases hl : w.reg.lookup name with
  | none =>
    rw [hl] at hg
    simp only [TgFn.body, tgShowFunctionDoc]
    tg [hg, showFunctionDoc, hl, List.append_nil]
  | some d =>
    rw [hl] at hg
    have : showFunctionDoc w.reg name = .ok (match showFunctionDoc w.reg name with | .ok s => s | .error e => e) := by simp only [showFunctionDoc, hl]
    rw [this]
    simp only [TgFn.body, tgShowFunctionDoc]
    refine next_then (st' := (({ vars := fun _ => .nil, w := w } : TgSt).set .functionName (.str name)).set .doc (.doc d) |>.set .exists (.bool true)) (by tg [hg]; rfl) ?_
    refine next_then (st' := (({ vars := fun _ => .nil, w := w } : TgSt).set .functionName (.str name)).set .doc (.doc d) |>.set .exists (.bool true)) (by tg []) ?_
    refine Does.then (P := Showing d w) (s := []) (t := b! "# " ++ (d.name ++ b! "\n\n")) (Does.print (by showing) (by showing)) ⟨rfl, (say_nil w).symm⟩ fun st h => ?_
    refine Does.then (t := b! "**" ++ (d.summary ++ b! "**\n\n")) (Does.print (by showing) (by showing)) h fun st h => ?_
    refine Does.then (Does.ite (d.description ≠ []) (t := b! "## Description\n\n" ++ (d.description ++ b! "\n\n")) (u := []) (by showing)
      (fun _ => Does.print (by showing) (by showing)) fun _ => Does.skip) h fun st h => ?_
    refine Does.then (Does.ite (d.parameters ≠ []) (t := b! "## Parameters\n\n" ++ (d.parameters.flatMap cmdParamText ++ b! "\n")) (u := []) (by showing)
      (fun _ => Does.seq (Does.print (by showing) (by showing))
        (Does.seq (Does.congr (Does.range .param (.params d.parameters) d.parameters (fun _ => cmdParamText) (fun _ p s st => Showing d w s st ∧ st.vars .param = .param p)
          (by showing) rfl (by showing) (by showing) fun _ p => ?_) (mapIdx_flatMap ..)) (Does.print (by showing) (by showing))))
      fun _ => Does.skip) h fun st h => ?_
    · rintro s st ⟨⟨h₁, h₂⟩, h₃⟩
      cases ho : p.optional with
      | true =>
        apply next_ex
        · tg [h₁, h₂, h₃, ho]
          rfl
        · refine ⟨⟨?_, ?_⟩, ?_⟩ <;> tg [h₁, h₂, h₃, TgW.say, cmdParamText, ho, List.append_assoc, List.append_nil]
      | false =>
        apply next_ex
        · tg [h₁, h₂, h₃, ho]
          rfl
        · refine ⟨⟨?_, ?_⟩, ?_⟩ <;> tg [h₁, h₂, h₃, TgW.say, cmdParamText, ho, List.append_assoc, List.append_nil, Bool.false_eq_true, List.nil_append]
    refine Does.then (Does.ite (d.examples ≠ []) (t := b! "## Examples\n\n" ++ (joinWith b! "\n" (d.examples.map cmdExampleText) ++ b! "\n")) (u := []) (by showing)
      (fun _ => Does.seq (Does.print (by showing) (by showing))
        (Does.seq (Does.congr (Does.range .example (.examples d.examples) d.examples (fun k a => (if 0 < k then b! "\n" else []) ++ cmdExampleText a)
          (fun k p s st => Showing d w s st ∧ st.vars .example = .example p ∧ st.vars .i = .int k)
          (by showing) rfl (by showing) (by showing) fun k p => ?_) (examples_joined _)) (Does.print (by showing) (by showing))))
      fun _ => Does.skip) h fun st h => ?_
    · refine Does.congr (Does.seq (Does.ite (0 < k) (t := b! "\n") (u := []) ?_ (fun _ => Does.print (by showing) (by showing)) fun _ => Does.skip)
        (Does.seq (Does.print (t := b! "### " ++ (p.description ++ b! "\n\n")) (by showing) (by showing))
        (Does.seq (Does.ite (p.buffer ≠ []) (t := b! "**Initial buffer:**\n```\n" ++ (p.buffer ++ b! "\n```\n\n")) (u := []) (by showing)
          (fun _ => Does.print (by showing) (by showing)) fun _ => Does.skip)
        (Does.seq (Does.print (t := b! "**Command:**\n```\n" ++ (p.input ++ b! "\n```\n\n")) (by showing) (by showing))
        (Does.print (t := b! "**Result:**\n" ++ (p.output ++ b! "\n")) (by showing) (by showing)))))) ?_
      · rintro s st ⟨⟨h₁, h₂⟩, h₃, h₄⟩
        tg [h₄]
        exact ok_bool (decide_of (by omega))
      · simp only [cmdExampleText, List.append_assoc]
    refine Does.then (Does.ite (d.category ≠ []) (t := b! "## Category\n\n" ++ (d.category ++ b! "\n\n")) (u := []) (by showing)
      (fun _ => Does.print (by showing) (by showing)) fun _ => Does.skip) h fun st h => ?_
    refine Does.then (Does.ite (d.seeAlso ≠ []) (t := b! "## See Also\n\n" ++ ((d.seeAlso.flatMap fun r => b! "- " ++ r ++ b! "\n") ++ b! "\n")) (u := []) (by showing)
      (fun _ => Does.seq (Does.print (by showing) (by showing))
        (Does.seq (Does.congr (Does.range .str (.strs d.seeAlso) d.seeAlso (fun _ r => b! "- " ++ r ++ b! "\n") (fun _ p s st => Showing d w s st ∧ st.vars .related = .str p)
          (by showing) rfl (by showing) (by showing) fun _ p =>
            Does.congr (Does.print (t := b! "- " ++ (p ++ b! "\n")) (by showing) (by showing)) (List.append_assoc ..).symm) (mapIdx_flatMap ..)) (Does.print (by showing) (by showing))))
      fun _ => Does.skip) h fun st h => ?_
    obtain ⟨h₁, h₂⟩ := h
    tg [h₁, h₂]
    simp only [showFunctionDoc, hl, List.append_assoc, List.nil_append]

end Texted
