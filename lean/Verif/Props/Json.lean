import Verif.Lemmas.JsonRead
import Verif.Model.Writer
/-
The JSON syntax: /repo/edlisp/parser/json.go, /repo/edlisp/writer/json.go.
C37 round trip, C43 validation, C61 output of `texted parse --output-format json`.
-/
namespace Texted
open Spec

/-! ### C43: validation accepts exactly what converts -/

mutual
theorem validate_item : (j : Json) → (validate false j = none ↔ ∃ v, convertItem j = .ok v)
  | .null => by simp [validate, convertItem]
  | .bool _ => by simp [validate, convertItem]
  | .num _ => by simp [validate, convertItem]
  | .str _ => by simp [validate, convertItem]
  | .obj _ => by simp [validate, convertItem]
  | .arr [] => by simp [validate, convertItem, convertArray]
  | .arr (.str s :: rest) => by
    rw [validate, convertItem, convertArray, validate_items rest 1 1]
    constructor
    · rintro ⟨vs, h⟩; exact ⟨_, by rw [h]⟩
    · rintro ⟨v, h⟩
      cases hc : convertItems 1 rest with
      | ok vs => exact ⟨vs, rfl⟩
      | error e => rw [hc] at h; cases h
  | .arr (.null :: _) => by simp [validate, convertItem, convertArray]
  | .arr (.bool _ :: _) => by simp [validate, convertItem, convertArray]
  | .arr (.num _ :: _) => by simp [validate, convertItem, convertArray]
  | .arr (.arr _ :: _) => by simp [validate, convertItem, convertArray]
  | .arr (.obj _ :: _) => by simp [validate, convertItem, convertArray]
theorem validate_items : (l : List Json) → (i k : Nat) → (validateItems i l = none ↔ ∃ vs, convertItems k l = .ok vs)
  | [], i, k => by simp [validateItems, convertItems]
  | j :: rest, i, k => by
    rw [validateItems, convertItems]
    have h1 := validate_item j
    have h2 := validate_items rest (i + 1) (k + 1)
    cases hv : validate false j with
    | some e =>
      cases hc : convertItem j with
      | ok v => rw [hv] at h1; exact absurd (h1.2 ⟨v, hc⟩) (by simp)
      | error e => simp
    | none =>
      obtain ⟨v, hc⟩ := h1.1 hv
      rw [hc]
      simp only
      rw [h2]
      constructor
      · rintro ⟨vs, h⟩; exact ⟨_, by rw [h]⟩
      · rintro ⟨vs, h⟩
        cases hr : convertItems (k + 1) rest with
        | ok vs => exact ⟨vs, rfl⟩
        | error e => rw [hr] at h; cases h
end

/-- C43. `ValidateJSONFormat` accepts exactly the arrays that `convertJSONValue` turns into a value. -/
theorem C43_validate (j : Json) : validateFormat j = none ↔ (∃ l, j = .arr l) ∧ ∃ v, convertValue j = .ok v := by
  have key := validate_item j
  cases j with
  | null => simp [validateFormat, validate]
  | bool b => simp [validateFormat, validate]
  | num x => simp [validateFormat, validate]
  | str s => simp [validateFormat, validate]
  | obj f => simp [validateFormat, validate]
  | arr l =>
    have : validateFormat (.arr l) = validate false (.arr l) := by
      cases l with
      | nil => simp [validateFormat, validate]
      | cons j r => cases j <;> simp [validateFormat, validate]
    rw [this, key]
    simp [convertValue, convertItem]

mutual
theorem commandTree_item : (j : Json) → (CommandTree j ↔ (∃ l, j = .arr l) ∧ ∃ v, convertItem j = .ok v)
  | .null => ⟨fun h => (nomatch h), fun h => by simp at h⟩
  | .bool _ => ⟨fun h => (nomatch h), fun h => by simp at h⟩
  | .num _ => ⟨fun h => (nomatch h), fun h => by simp at h⟩
  | .str _ => ⟨fun h => (nomatch h), fun h => by simp at h⟩
  | .obj _ => ⟨fun h => (nomatch h), fun h => by simp at h⟩
  | .arr [] => ⟨fun _ => ⟨⟨_, rfl⟩, _, rfl⟩, fun _ => .empty⟩
  | .arr (.str s :: rest) => by
    constructor
    · intro h
      cases h with
      | call _ _ ha =>
        obtain ⟨vs, hv⟩ := (argTrees_items rest 1).1 ha
        exact ⟨⟨_, rfl⟩, _, by rw [convertItem, convertArray, hv]⟩
    · rintro ⟨_, v, h⟩
      rw [convertItem, convertArray] at h
      cases hc : convertItems 1 rest with
      | ok vs => exact .call _ _ ((argTrees_items rest 1).2 ⟨vs, hc⟩)
      | error e => rw [hc] at h; cases h
  | .arr (.null :: _) => ⟨fun h => (nomatch h), fun h => by simp [convertItem, convertArray] at h⟩
  | .arr (.bool _ :: _) => ⟨fun h => (nomatch h), fun h => by simp [convertItem, convertArray] at h⟩
  | .arr (.num _ :: _) => ⟨fun h => (nomatch h), fun h => by simp [convertItem, convertArray] at h⟩
  | .arr (.arr _ :: _) => ⟨fun h => (nomatch h), fun h => by simp [convertItem, convertArray] at h⟩
  | .arr (.obj _ :: _) => ⟨fun h => (nomatch h), fun h => by simp [convertItem, convertArray] at h⟩
theorem argTrees_items : (l : List Json) → (k : Nat) → (ArgTrees l ↔ ∃ vs, convertItems k l = .ok vs)
  | [], k => ⟨fun _ => ⟨_, rfl⟩, fun _ => .nil⟩
  | j :: rest, k => by
    have h1 := commandTree_item j
    have h2 := argTrees_items rest (k + 1)
    constructor
    · intro h
      have : (∃ v, convertItem j = .ok v) ∧ ArgTrees rest := by
        cases h with
        | str s _ hr => exact ⟨⟨_, rfl⟩, hr⟩
        | num x _ hr => exact ⟨⟨_, rfl⟩, hr⟩
        | cmd _ _ hc hr => exact ⟨(h1.1 hc).2, hr⟩
      obtain ⟨⟨v, hv⟩, hr⟩ := this
      obtain ⟨vs, hvs⟩ := h2.1 hr
      exact ⟨v :: vs, by rw [convertItems, hv]; simp only; rw [hvs]⟩
    · rintro ⟨vs, h⟩
      rw [convertItems] at h
      cases hc : convertItem j with
      | error e => rw [hc] at h; cases h
      | ok v =>
        cases hr : convertItems (k + 1) rest with
        | error e => rw [hc] at h; simp only at h; rw [hr] at h; cases h
        | ok ws =>
          have ha := h2.2 ⟨ws, hr⟩
          cases j with
          | str s => exact .str _ _ ha
          | num s => exact .num _ _ ha
          | arr l => exact .cmd _ _ (h1.2 ⟨⟨l, rfl⟩, v, hc⟩) ha
          | null => simp [convertItem] at hc
          | bool => simp [convertItem] at hc
          | obj => simp [convertItem] at hc
end

/-- C43. The accepted values are exactly the command trees of the specification. -/
theorem C43_commandTree (j : Json) : validateFormat j = none ↔ CommandTree j := by
  rw [C43_validate, commandTree_item]
  constructor
  · rintro ⟨⟨l, rfl⟩, h⟩; exact ⟨⟨l, rfl⟩, h⟩
  · rintro ⟨⟨l, rfl⟩, h⟩; exact ⟨⟨l, rfl⟩, h⟩

/-- C43. The commands of a script convert exactly when all of them are accepted, each to its own value, in order; the
result does not depend on the index the error messages count from. -/
theorem C43_commands (i : Nat) (l : List Json) (vs : List Value) :
    convertCommands i l = .ok vs ↔ (∀ j ∈ l, CommandTree j) ∧ l.map convertValue = vs.map .ok := by
  induction l generalizing i vs with
  | nil =>
    simp only [convertCommands, List.map_nil, List.not_mem_nil, false_implies, implies_true, true_and]
    constructor
    · intro h; cases h; rfl
    · intro h; rw [List.map_eq_nil_iff.1 h.symm]
  | cons j rest ih =>
    rw [convertCommands]
    cases hv : validateFormat j with
    | some e =>
      constructor
      · intro h; cases h
      · rintro ⟨h, _⟩
        have := (C43_commandTree j).2 (h j (by simp))
        rw [hv] at this; cases this
    | none =>
      have hj := (C43_commandTree j).1 hv
      obtain ⟨_, v, hcv⟩ := (C43_validate j).1 hv
      rw [hcv]
      simp only
      constructor
      · intro h
        cases hr : convertCommands (i + 1) rest with
        | error e => rw [hr] at h; cases h
        | ok ws =>
          rw [hr] at h; cases h
          obtain ⟨h1, h2⟩ := (ih (i + 1) ws).1 hr
          exact ⟨by simpa [hj] using h1, by simp [hcv, h2]⟩
      · rintro ⟨h1, h2⟩
        cases vs with
        | nil => simp at h2
        | cons w ws =>
          simp only [List.map_cons, List.cons.injEq, hcv] at h2
          have := (ih (i + 1) ws).2 ⟨fun j hj => h1 j (by simp [hj]), h2.2⟩
          rw [this]
          cases h2.1; rfl

/-- C43. `ParseJSONString` succeeds exactly on one JSON array of command trees (or `null`), and its result has one value
per command, in order. -/
theorem C43_parse (s : Bytes) (vs : List Value) :
    parseJsonString s = .ok vs ↔
      (jsonText s = some .null ∧ vs = []) ∨
      ∃ l, jsonText s = some (.arr l) ∧ (∀ j ∈ l, CommandTree j) ∧ l.map convertValue = vs.map .ok := by
  unfold parseJsonString
  cases h : jsonText s with
  | none => simp
  | some j =>
    cases j with
    | null => simp [eq_comm]
    | arr l => simp [C43_commands]
    | bool | num | str | obj => simp

/-- A script of two commands, one nested, is accepted and keeps its commands in order. -/
example : parseJsonString (b! "[[\"goto-char\", [\"point-max\"]], [\"insert\", \"x\"]]") =
    .ok [.list [.sym (b! "goto-char"), .list [.sym (b! "point-max")]], .list [.sym (b! "insert"), .str (b! "x")]] := by
  decide +kernel

/-! ### C37: round trip -/

mutual
theorem json_back : (v : Value) → JsonCommand v → convertItem (valueToJson v) = .ok v
  | .sym _, h => nomatch h
  | .str _, h => nomatch h
  | .num _, h => nomatch h
  | .list [], _ => rfl
  | .list (.sym n :: args), h => by
    cases h with
    | call _ _ ha => rw [valueToJson, valuesToJson, valueToJson, convertItem, convertArray, jsons_back args 1 ha]
  | .list (.str _ :: _), h => nomatch h
  | .list (.num _ :: _), h => nomatch h
  | .list (.list _ :: _), h => nomatch h
theorem jsons_back : (l : List Value) → (i : Nat) → JsonArgs l → convertItems i (valuesToJson l) = .ok l
  | [], _, _ => rfl
  | v :: rest, i, h => by
    have : convertItem (valueToJson v) = .ok v ∧ JsonArgs rest := by
      cases h with
      | str s _ hr => exact ⟨rfl, hr⟩
      | num x _ hr => exact ⟨rfl, hr⟩
      | cmd _ _ hc hr => exact ⟨json_back v hc, hr⟩
    rw [valuesToJson, convertItems, this.1]
    simp only
    rw [jsons_back rest (i + 1) this.2]
end

theorem jsonCommand_list {v : Value} (h : JsonCommand v) : ∃ l, v = .list l := by cases h <;> exact ⟨_, rfl⟩

/-- C37. Converting a command to JSON and back gives the same command, and its JSON form passes validation. -/
theorem C37_back (v : Value) (h : JsonCommand v) :
    convertValue (valueToJson v) = .ok v ∧ validateFormat (valueToJson v) = none := by
  have h1 := json_back v h
  obtain ⟨l, rfl⟩ := jsonCommand_list h
  rw [valueToJson] at h1 ⊢
  rw [convertItem] at h1
  exact ⟨h1, (C43_validate _).2 ⟨⟨_, rfl⟩, _, h1⟩⟩

mutual
theorem json_forth : (j : Json) → (v : Value) → convertItem j = .ok v → valueToJson v = j ∧ (∀ l, j = .arr l → JsonCommand v)
  | .null, v, h => by simp [convertItem] at h
  | .bool _, v, h => by simp [convertItem] at h
  | .obj _, v, h => by simp [convertItem] at h
  | .num x, v, h => by cases h; exact ⟨rfl, fun l h => nomatch h⟩
  | .str s, v, h => by cases h; exact ⟨rfl, fun l h => nomatch h⟩
  | .arr [], v, h => by cases h; exact ⟨rfl, fun _ _ => .empty⟩
  | .arr (.str s :: rest), v, h => by
    rw [convertItem, convertArray] at h
    cases hc : convertItems 1 rest with
    | error e => rw [hc] at h; cases h
    | ok vs =>
      rw [hc] at h; cases h
      obtain ⟨h1, h2⟩ := jsons_forth rest 1 vs hc
      exact ⟨by rw [valueToJson, valuesToJson, valueToJson, h1], fun _ _ => .call _ _ h2⟩
  | .arr (.null :: _), v, h => by simp [convertItem, convertArray] at h
  | .arr (.bool _ :: _), v, h => by simp [convertItem, convertArray] at h
  | .arr (.num _ :: _), v, h => by simp [convertItem, convertArray] at h
  | .arr (.arr _ :: _), v, h => by simp [convertItem, convertArray] at h
  | .arr (.obj _ :: _), v, h => by simp [convertItem, convertArray] at h
theorem jsons_forth : (l : List Json) → (i : Nat) → (vs : List Value) → convertItems i l = .ok vs → valuesToJson vs = l ∧ JsonArgs vs
  | [], i, vs, h => by cases h; exact ⟨rfl, .nil⟩
  | j :: rest, i, vs, h => by
    rw [convertItems] at h
    cases hc : convertItem j with
    | error e => rw [hc] at h; cases h
    | ok v =>
      cases hr : convertItems (i + 1) rest with
      | error e => rw [hc] at h; simp only at h; rw [hr] at h; cases h
      | ok ws =>
        rw [hc] at h; simp only at h; rw [hr] at h; cases h
        obtain ⟨h1, h2⟩ := json_forth j v hc
        obtain ⟨h3, h4⟩ := jsons_forth rest (i + 1) ws hr
        refine ⟨by rw [valuesToJson, h1, h3], ?_⟩
        cases j with
        | str s => cases hc; exact .str _ _ h4
        | num s => cases hc; exact .num _ _ h4
        | arr l => exact .cmd _ _ (h2 l rfl) h4
        | null => simp [convertItem] at hc
        | bool => simp [convertItem] at hc
        | obj => simp [convertItem] at hc
end

/-- C37. The other way round: whatever an accepted JSON command converts to is such a command, and converting it back
gives the same JSON. So conversion is one-to-one. -/
theorem C37_forth (j : Json) (v : Value) (hj : validateFormat j = none) (h : convertValue j = .ok v) :
    JsonCommand v ∧ valueToJson v = j := by
  obtain ⟨⟨l, rfl⟩, _⟩ := (C43_validate j).1 hj
  obtain ⟨h1, h2⟩ := json_forth (.arr l) v h
  exact ⟨h2 l rfl, h1⟩

/-- C37, negative part: symbols in argument position come back as strings, so such a command changes. -/
theorem C37_symbol_argument (f : Bytes) (before after : List Value) (a : Bytes) (hb : JsonArgs before) (ha : JsonArgs after) :
    convertValue (valueToJson (.list (.sym f :: (before ++ .sym a :: after)))) = .ok (.list (.sym f :: (before ++ .str a :: after))) := by
  have hj : JsonArgs (before ++ .str a :: after) := by
    generalize hl : before = l at hb
    clear hl before
    induction l with
    | nil => exact .str _ _ ha
    | cons v r ih =>
      cases hb with
      | str s _ hr => exact .str _ _ (ih hr)
      | num s _ hr => exact .num _ _ (ih hr)
      | cmd _ _ hc hr => exact .cmd _ _ hc (ih hr)
  have hs : valuesToJson (before ++ .sym a :: after) = valuesToJson (before ++ .str a :: after) := by
    clear hj hb
    induction before with
    | nil => rfl
    | cons v r ih => rw [List.cons_append, List.cons_append, valuesToJson, valuesToJson, ih]
  have := C37_back _ (.call f _ hj)
  rw [← this.1, valueToJson, valuesToJson, hs]
  rfl

/-! #### Texts -/

theorem jsonOne_print (v : Value) (w t rest : Bytes) (hv : TextValue v) (hd : nesting v ≤ maxNesting) (ht : jsonPrint (valueToJson v) = some t)
    (hw : w = [] ∨ w = [nl]) (hr : NumStop rest) : jsonOne (w ++ (t ++ rest)) = some (valueToJson v, rest) ∧ jws (w ++ (t ++ rest)) ≠ [] := by
  obtain ⟨c, t', h1, h2, h3⟩ := jsonPrint_reads v hv
  rw [ht] at h1
  cases h1
  have hj : jws (w ++ (c :: t' ++ rest)) = c :: t' ++ rest := by
    have := jws_cons c (t' ++ rest) h2.space
    rcases hw with rfl | rfl
    · exact this
    · simp only [jws] at this ⊢
      simpa [nl, jsonSpace] using this
  rw [jsonOne, hj]
  exact ⟨h3 _ _ _ (by simp; omega) hd hr, by simp⟩

theorem writeJsonValue_some (v : Value) (hv : TextValue v) : ∃ c t, jsonPrint (valueToJson v) = some (c :: t) ∧ JHead c ∧ writeJsonValue v = some (c :: t ++ [nl]) := by
  obtain ⟨c, t', h1, h2, h3⟩ := jsonPrint_reads v hv
  exact ⟨c, t', h1, h2, by rw [writeJsonValue, h1]; rfl⟩

theorem parseJsonStream_write (p : List Value) (hp : ∀ v ∈ p, convertValue (valueToJson v) = .ok v ∧ TextValue v ∧ nesting v ≤ maxNesting) :
    ∀ f w, w = [] ∨ w = [nl] → (writeJson p).out.length < f → parseJsonStream f (w ++ (writeJson p).out) = .ok p := by
  induction p with
  | nil =>
    intro f w hw hf
    cases f with
    | zero => simp at hf
    | succ f =>
      have : jws (w ++ (writeJson []).out) = [] := by rcases hw with rfl | rfl <;> rfl
      rw [parseJsonStream, if_pos this]
  | cons v r ih =>
    intro f w hw hf
    obtain ⟨hc, ht, hd⟩ := hp v (by simp)
    obtain ⟨c, t, h1, h2, h3⟩ := writeJsonValue_some v ht
    have hout : (writeJson (v :: r)).out = c :: t ++ (nl :: (writeJson r).out) := by simp [writeJson, h3]
    rw [hout] at hf ⊢
    simp only [List.length_cons, List.length_append] at hf
    cases f with
    | zero => omega
    | succ f =>
      obtain ⟨h4, h5⟩ := jsonOne_print v w (c :: t) (nl :: (writeJson r).out) ht hd h1 hw (numStop_nl _)
      rw [parseJsonStream, if_neg h5, h4]
      simp only
      rw [hc]
      simp only
      rw [show nl :: (writeJson r).out = [nl] ++ (writeJson r).out from rfl, ih (fun v hv => hp v (by simp [hv])) f [nl] (Or.inr rfl) (by omega)]

/-- C37. Reading back (with the stream reader, as `texted parse --input-format json` does) what the JSON writer wrote for a
program gives the program. -/
theorem C37_text (p : List Value) (hp : ∀ v ∈ p, JsonCommand v ∧ TextValue v ∧ nesting v ≤ 10000) :
    (writeJson p).err = none ∧ parseJsonReader (writeJson p).out = .ok p := by
  constructor
  · induction p with
    | nil => rfl
    | cons v r ih =>
      obtain ⟨c, t, h1, h2, h3⟩ := writeJsonValue_some v (hp v (by simp)).2.1
      simp [writeJson, h3, ih fun v hv => hp v (by simp [hv])]
  · exact parseJsonStream_write p (fun v hv => ⟨(C37_back v (hp v hv).1).1, (hp v hv).2⟩) _ [] (Or.inl rfl) (by simp)

theorem jsonPrints_join (p : List Value) (ts : List Bytes) (h : p.map writeJsonValue = ts.map fun t => some (t ++ [nl])) :
    jsonPrints (valuesToJson p) = some (joinWith (b! ",") ts) := by
  induction p generalizing ts with
  | nil =>
    cases ts with
    | nil => rfl
    | cons t r => simp at h
  | cons v r ih =>
    cases ts with
    | nil => simp at h
    | cons t ts =>
      simp only [List.map_cons, List.cons.injEq] at h
      have hv : jsonPrint (valueToJson v) = some t := by
        have := h.1
        unfold writeJsonValue at this
        cases hp : jsonPrint (valueToJson v) with
        | none => rw [hp] at this; simp at this
        | some x => rw [hp] at this; simp at this; rw [this]
      rw [jsonPrints_cons v r t _ hv (ih ts h.2)]
      cases r with
      | nil =>
        have : ts = [] := by simpa using h.2.symm
        subst this
        rfl
      | cons w r =>
        cases ts with
        | nil => simp at h
        | cons x xs => simp [joinWith]

theorem textValues_of (p : List Value) (h : ∀ v ∈ p, TextValue v) : TextValues p := by
  induction p with
  | nil => trivial
  | cons v r ih => exact ⟨h v (by simp), ih fun v hv => h v (by simp [hv])⟩

theorem nestingAll_of (p : List Value) (n : Nat) (h : ∀ v ∈ p, nesting v ≤ n) : nestingAll p ≤ n := by
  induction p with
  | nil => simp [nestingAll]
  | cons v r ih =>
    have := h v (by simp)
    have := ih fun v hv => h v (by simp [hv])
    rw [nestingAll]; omega

theorem valuesToJson_map (p : List Value) : valuesToJson p = p.map valueToJson := by
  induction p with
  | nil => rfl
  | cons v r ih => rw [valuesToJson, ih]; rfl

/-- C37. The lines of the JSON writer, joined by commas and put in brackets, are a script for `edit --json`, and it is the
same program. -/
theorem C37_text_array (p : List Value) (ts : List Bytes) (hp : ∀ v ∈ p, JsonCommand v ∧ TextValue v ∧ nesting v ≤ 9999)
    (hts : p.map writeJsonValue = ts.map fun t => some (t ++ [nl])) :
    parseJsonString (b! "[" ++ joinWith (b! ",") ts ++ b! "]") = .ok p := by
  have h1 : jsonPrint (valueToJson (.list p)) = some (b! "[" ++ joinWith (b! ",") ts ++ b! "]") := by
    rw [valueToJson, jsonPrint, jsonPrints_join p ts hts]
  have hn : nestingAll p ≤ 9999 := nestingAll_of p 9999 fun v hv => (hp v hv).2.2
  have htv : TextValue (.list p) := by rw [TextValue]; exact textValues_of p fun v hv => (hp v hv).2.1
  have h2 := (jsonOne_print (.list p) [] _ [] htv (by rw [nesting]; exact Nat.succ_le_succ hn) h1 (Or.inl rfl) (by intro c hc; simp at hc)).1
  rw [List.nil_append, List.append_nil] at h2
  rw [C43_parse]
  refine Or.inr ⟨p.map valueToJson, ?_, ?_, ?_⟩
  · rw [jsonText, h2]
    rw [valueToJson, valuesToJson_map]; rfl
  · intro j hj
    obtain ⟨v, hv, rfl⟩ := List.mem_map.1 hj
    exact (C43_commandTree _).1 (C37_back v (hp v hv).1).2
  · rw [List.map_map]
    apply List.map_congr_left
    intro v hv
    exact (C37_back v (hp v hv).1).1

/-- The hypotheses are met by a nested program with escapes, a negative and a fractional number; its text is as expected. -/
example :
    let v : Value := .list [.sym (b! "f"), .str (b! "a\"\n<é"), .num (.fin true 3 (-1)), .list [.sym (b! "g"), .num (.fin false 5 70)]]
    JsonCommand v ∧ TextValue v ∧ nesting v ≤ 9999 ∧
    writeJsonValue v = some (b! "[\"f\",\"a\\\"\\n\\u003cé\",-1.5,[\"g\",5.902958103587057e+21]]\n") := by
  refine ⟨?_, ?_, by decide, by decide +kernel⟩
  · exact .call _ _ (.str _ _ (.num _ _ (.cmd _ _ (.call _ _ (.num _ _ .nil)) .nil)))
  · refine ⟨⟨['f'], by decide +kernel⟩, ⟨['a', '"', '\n', '<', 'é'], by decide +kernel⟩, ⟨?_, _, _, _, rfl⟩, ⟨⟨['g'], by decide +kernel⟩, ⟨?_, _, _, _, rfl⟩, trivial⟩, trivial⟩
    · exact Or.inr ⟨by decide, by decide, by decide, by decide +kernel⟩
    · exact Or.inr ⟨by decide, by decide, by decide, by decide +kernel⟩

/-! ### C61: `texted parse --output-format json` and `edit --json` -/

/-- C61, negative result. What the parse command prints for one command is refused by `edit --json`, whatever the command. -/
theorem C61_single_refused (name : Bytes) (args : List Value) (ht : TextValue (.list (.sym name :: args)))
    (hd : nesting (.list (.sym name :: args)) ≤ 10000) :
    (writeJson [.list (.sym name :: args)]).err = none ∧
    parseJsonString (writeJson [.list (.sym name :: args)]).out =
      .error (b! "invalid format at index 0: top-level strings are not allowed in texted JSON") := by
  obtain ⟨c, t, h1, h2, h3⟩ := writeJsonValue_some _ ht
  obtain ⟨h4, h5⟩ := jsonOne_print _ [] (c :: t) [nl] ht hd h1 (Or.inl rfl) (numStop_nl _)
  have hout : (writeJson [.list (.sym name :: args)]).out = c :: t ++ [nl] := by simp [writeJson, h3]
  refine ⟨by simp [writeJson, h3], ?_⟩
  rw [hout, parseJsonString, jsonText, show c :: t ++ [nl] = [] ++ (c :: t ++ [nl]) from rfl, h4]
  rfl

/-- C61, negative result. So is what it prints for two or more commands. -/
theorem C61_many_refused (v w : Value) (r : List Value)
    (hp : ∀ x ∈ v :: w :: r, TextValue x ∧ nesting x ≤ 10000) :
    (writeJson (v :: w :: r)).err = none ∧ ∃ e, parseJsonString (writeJson (v :: w :: r)).out = .error e := by
  have herr : ∀ p : List Value, (∀ x ∈ p, TextValue x ∧ nesting x ≤ 10000) → (writeJson p).err = none := by
    intro p
    induction p with
    | nil => intro _; rfl
    | cons v r ih =>
      intro hp
      obtain ⟨c, t, h1, h2, h3⟩ := writeJsonValue_some v (hp v (by simp)).1
      simp [writeJson, h3, ih fun v hv => hp v (by simp [hv])]
  refine ⟨herr _ hp, ?_⟩
  obtain ⟨ht, hd⟩ := hp v (by simp)
  obtain ⟨c, t, h1, h2, h3⟩ := writeJsonValue_some v ht
  obtain ⟨c', t', h1', h2', h3'⟩ := writeJsonValue_some w (hp w (by simp)).1
  have hout : (writeJson (v :: w :: r)).out = c :: t ++ (nl :: (c' :: t' ++ (nl :: (writeJson r).out))) := by simp [writeJson, h3, h3']
  obtain ⟨h4, h5⟩ := jsonOne_print v [] (c :: t) (nl :: (c' :: t' ++ (nl :: (writeJson r).out))) ht hd h1 (Or.inl rfl) (numStop_nl _)
  refine ⟨b! "JSON unmarshal error", ?_⟩
  have hne : jws (nl :: (c' :: t' ++ (nl :: (writeJson r).out))) ≠ [] := by
    have := jws_cons c' (t' ++ (nl :: (writeJson r).out)) h2'.space
    have e : jws (nl :: (c' :: t' ++ (nl :: (writeJson r).out))) = jws (c' :: (t' ++ (nl :: (writeJson r).out))) := by simp [jws, nl, jsonSpace]
    rw [e, this]; simp
  rw [hout, parseJsonString, jsonText]
  rw [List.nil_append] at h4
  rw [h4]
  simp only
  rw [if_neg hne]

/-- C61, negative result. For a program without commands nothing is printed, and `edit --json` refuses that too. -/
theorem C61_empty_refused : writeJson [] = ⟨[], none⟩ ∧ parseJsonString [] = .error (b! "JSON unmarshal error") := by
  decide +kernel

/-- One command as `parse` prints it, refused by `edit --json`. -/
example : (writeJson [.list [.sym (b! "insert"), .str (b! "x")]]).out = b! "[\"insert\",\"x\"]\n" ∧
    parseJsonString (b! "[\"insert\",\"x\"]\n") = .error (b! "invalid format at index 0: top-level strings are not allowed in texted JSON") := by
  decide +kernel

/-- The README's own example (`texted edit --json -s '["search-forward", "pattern"]'`, /repo/README.md:48, 134) is refused. -/
theorem C61_readme : parseJsonString (b! "[\"search-forward\", \"pattern\"]") =
    .error (b! "invalid format at index 0: top-level strings are not allowed in texted JSON") := by
  decide +kernel

end Texted
