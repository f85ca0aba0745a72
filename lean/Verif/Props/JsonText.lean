import Verif.Lemmas.JsonGrammar
import Verif.Props.ParseCmd
import Verif.Props.Mcp
/-
JSON input against the grammar of Spec/JsonText: C43 (`ParseJSONString`), C67 (`ParseJSONReader`), C72 (requests).
-/
namespace Texted
open Spec

/-! ### C43: exactly which texts are JSON scripts -/

mutual
theorem commandIs_iff : (j : Json) → (v : Value) → (CommandIs j v ↔ (∃ l, j = .arr l) ∧ convertItem j = .ok v)
  | .null, v => ⟨fun h => (nomatch h), fun h => by simp at h⟩
  | .bool _, v => ⟨fun h => (nomatch h), fun h => by simp at h⟩
  | .num _, v => ⟨fun h => (nomatch h), fun h => by simp at h⟩
  | .str _, v => ⟨fun h => (nomatch h), fun h => by simp at h⟩
  | .obj _, v => ⟨fun h => (nomatch h), fun h => by simp at h⟩
  | .arr [], v => ⟨fun h => by cases h; exact ⟨⟨_, rfl⟩, rfl⟩, fun ⟨_, h⟩ => by cases h; exact .empty⟩
  | .arr (.str s :: rest), v => by
    constructor
    · intro h
      cases h with
      | call ha =>
        refine ⟨⟨_, rfl⟩, ?_⟩
        rw [convertItem, convertArray, (argumentsAre_iff rest _ 1).1 ha]
    · rintro ⟨_, h⟩
      rw [convertItem, convertArray] at h
      cases hc : convertItems 1 rest with
      | ok vs => rw [hc] at h; cases h; exact .call ((argumentsAre_iff rest vs 1).2 hc)
      | error e => rw [hc] at h; cases h
  | .arr (.null :: _), v => ⟨fun h => (nomatch h), fun h => by simp [convertItem, convertArray] at h⟩
  | .arr (.bool _ :: _), v => ⟨fun h => (nomatch h), fun h => by simp [convertItem, convertArray] at h⟩
  | .arr (.num _ :: _), v => ⟨fun h => (nomatch h), fun h => by simp [convertItem, convertArray] at h⟩
  | .arr (.arr _ :: _), v => ⟨fun h => (nomatch h), fun h => by simp [convertItem, convertArray] at h⟩
  | .arr (.obj _ :: _), v => ⟨fun h => (nomatch h), fun h => by simp [convertItem, convertArray] at h⟩
theorem argumentsAre_iff : (l : List Json) → (vs : List Value) → (i : Nat) → (ArgumentsAre l vs ↔ convertItems i l = .ok vs)
  | [], vs, i => ⟨fun h => by cases h; rfl, fun h => by cases h; exact .nil⟩
  | j :: rest, vs, i => by
    constructor
    · intro h
      rw [convertItems]
      cases h with
      | str hr => rw [convertItem]; simp only; rw [(argumentsAre_iff rest _ (i + 1)).1 hr]
      | num hr => rw [convertItem]; simp only; rw [(argumentsAre_iff rest _ (i + 1)).1 hr]
      | cmd hc hr => rw [((commandIs_iff j _).1 hc).2]; simp only; rw [(argumentsAre_iff rest _ (i + 1)).1 hr]
    · intro h
      rw [convertItems] at h
      cases hc : convertItem j with
      | error e => rw [hc] at h; cases h
      | ok v =>
        cases hr : convertItems (i + 1) rest with
        | error e => rw [hc] at h; simp only at h; rw [hr] at h; cases h
        | ok ws =>
          rw [hc] at h; simp only at h; rw [hr] at h; cases h
          have ha := (argumentsAre_iff rest ws (i + 1)).2 hr
          cases j with
          | str s => cases hc; exact .str ha
          | num s => cases hc; exact .num ha
          | arr l => exact .cmd ((commandIs_iff _ v).2 ⟨⟨l, rfl⟩, hc⟩) ha
          | null => simp [convertItem] at hc
          | bool => simp [convertItem] at hc
          | obj => simp [convertItem] at hc
end

theorem commandIs_value (j : Json) (v : Value) : CommandIs j v ↔ (∃ l, j = .arr l) ∧ convertValue j = .ok v := by
  rw [commandIs_iff]
  constructor
  · rintro ⟨⟨l, rfl⟩, h⟩; exact ⟨⟨l, rfl⟩, h⟩
  · rintro ⟨⟨l, rfl⟩, h⟩; exact ⟨⟨l, rfl⟩, h⟩

theorem convertCommands_iff (i : Nat) (l : List Json) (vs : List Value) : convertCommands i l = .ok vs ↔ CommandsAre l vs := by
  induction l generalizing i vs with
  | nil => exact ⟨fun h => by cases h; exact .nil, fun h => by cases h; rfl⟩
  | cons j l ih =>
    rw [convertCommands]
    constructor
    · intro h
      cases hv : validateFormat j with
      | some e => rw [hv] at h; cases h
      | none =>
        obtain ⟨⟨l', rfl⟩, v, hc⟩ := (C43_validate j).1 hv
        rw [hv, hc] at h
        simp only at h
        cases hr : convertCommands (i + 1) l with
        | error e => rw [hr] at h; cases h
        | ok ws => rw [hr] at h; cases h; exact .cons ((commandIs_value _ v).2 ⟨⟨_, rfl⟩, hc⟩) ((ih _ _).1 hr)
    · intro h
      cases h with
      | cons h1 h2 =>
        obtain ⟨⟨l', rfl⟩, hc⟩ := (commandIs_value j _).1 h1
        rw [(C43_validate _).2 ⟨⟨_, rfl⟩, _, hc⟩, hc]
        simp only
        rw [(ih (i + 1) _).2 h2]

/-- C43. Exactly which byte strings `--json` accepts as a script and what they mean: one JSON text that is `null` or an array of commands,
each an array of a name and arguments. -/
theorem C43_text (s : Bytes) (vs : List Value) :
    parseJsonString s = .ok vs ↔ (JsonText s .null ∧ vs = []) ∨ ∃ l, JsonText s (.arr l) ∧ CommandsAre l vs := by
  simp only [← jsonText_iff]
  unfold parseJsonString
  cases h : jsonText s with
  | none => simp
  | some j =>
    cases j with
    | null => simp [eq_comm]
    | arr l => simp [convertCommands_iff]
    | bool | num | str | obj => simp

/-- C43. The grammar is unambiguous: a text stands for one value only. -/
theorem C43_unique (s : Bytes) (j j' : Json) (h : JsonText s j) (h' : JsonText s j') : j = j' := by
  rw [← jsonText_iff] at h h'
  rw [h] at h'
  cases h'; rfl

/-! ### C67: JSON input of `texted parse` -/

theorem entries_cons (j : Json) (v : Value) (l : List Json) (vs : List Value) :
    EntriesAre (j :: l) (v :: vs) ↔ convertValue j = .ok v ∧ EntriesAre l vs := by
  constructor
  · intro h
    cases h with
    | cmd h1 h2 => exact ⟨((commandIs_value j v).1 h1).2, h2⟩
    | sym h2 => exact ⟨rfl, h2⟩
    | num h2 => exact ⟨rfl, h2⟩
  · rintro ⟨h1, h2⟩
    cases j with
    | arr l => exact .cmd ((commandIs_value _ v).2 ⟨⟨l, rfl⟩, h1⟩) h2
    | str s => cases h1; exact .sym h2
    | num x => cases h1; exact .num h2
    | null => simp [convertValue] at h1
    | bool => simp [convertValue] at h1
    | obj => simp [convertValue] at h1

theorem parseJsonStream_iff : ∀ (f : Nat) (s : Bytes) (vs : List Value), s.length < f →
    (parseJsonStream f s = .ok vs ↔ ∃ l, JsonStream s l ∧ EntriesAre l vs)
  | 0, s, vs, h => by omega
  | f + 1, s, vs, hf => by
    rw [parseJsonStream]
    constructor
    · intro h
      split at h
      · rename_i hw
        cases h
        obtain ⟨w, h1, h2⟩ := jws_split s
        rw [hw, List.append_nil] at h2
        rw [h2]
        exact ⟨[], .done h1, .nil⟩
      · split at h
        · cases h
        · rename_i j r hj
          split at h
          · cases h
          · rename_i v hv
            split at h
            · rename_i ws hws
              cases h
              obtain ⟨l, h1, h2⟩ := (parseJsonStream_iff f r ws (by have := jsonOne_length hj; omega)).1 hws
              obtain ⟨w, b, rfl, g1, g2, g3, g4⟩ := (jsonOne_iff _ _ _).1 hj
              exact ⟨j :: l, .next g1 g2 g3 g4 h1, (entries_cons _ _ _ _).2 ⟨hv, h2⟩⟩
            · cases h
    · rintro ⟨l, h1, h2⟩
      cases h1 with
      | done hw =>
        cases h2
        have : jws s = [] := by have := jws_spaces hw []; rwa [List.append_nil] at this
        rw [if_pos this]
      | next hw hb hd he hr =>
        rename_i w b rest j l
        have hj := (jsonOne_iff (w ++ (b ++ rest)) rest j).2 ⟨w, b, rfl, hw, hb, hd, he⟩
        have hne : jws (w ++ (b ++ rest)) ≠ [] := by
          obtain ⟨c, q, hc, hh⟩ := says_head hb
          rw [hc, List.cons_append, jws_stop hw _ _ (head_not hh).1]
          simp
        rw [if_neg hne, hj]
        simp only
        cases vs with
        | nil => cases h2
        | cons v vs =>
          obtain ⟨g1, g2⟩ := (entries_cons _ _ _ _).1 h2
          rw [g1]
          simp only
          have := jsonOne_length hj
          rw [(parseJsonStream_iff f rest vs (by omega)).2 ⟨_, hr, g2⟩]

/-- C67. Exactly which byte strings `texted parse --input-format json` accepts, and which program it reads: a sequence of JSON texts that are
commands, bare strings (symbols) or bare numbers. -/
theorem C67_json_input (s : Bytes) (vs : List Value) : parseJsonReader s = .ok vs ↔ ∃ l, JsonStream s l ∧ EntriesAre l vs :=
  parseJsonStream_iff _ s vs (Nat.lt_succ_self _)

theorem stream_jsonOne {s : Bytes} {j : Json} {l : List Json} (h : JsonStream s (j :: l)) : ∃ r, jsonOne s = some (j, r) ∧ JsonStream r l := by
  cases h with
  | next hw hb hd he hr => exact ⟨_, (jsonOne_iff _ _ _).2 ⟨_, _, rfl, hw, hb, hd, he⟩, hr⟩

theorem stream_nil {s : Bytes} (h : JsonStream s []) : jsonOne s = none := by
  cases h with
  | done hw =>
    have : jws s = [] := by have := jws_spaces hw []; rwa [List.append_nil] at this
    rw [jsonOne, this]
    rfl

/-- C67. The sequence is unambiguous too. -/
theorem C67_json_unique (s : Bytes) (l l' : List Json) (h : JsonStream s l) (h' : JsonStream s l') : l = l' := by
  induction l generalizing s l' with
  | nil =>
    cases l' with
    | nil => rfl
    | cons j l' =>
      obtain ⟨r, h1, _⟩ := stream_jsonOne h'
      rw [stream_nil h] at h1; cases h1
  | cons j l ih =>
    obtain ⟨r, h1, h2⟩ := stream_jsonOne h
    cases l' with
    | nil => rw [stream_nil h'] at h1; cases h1
    | cons j' l' =>
      obtain ⟨r', h3, h4⟩ := stream_jsonOne h'
      rw [h1] at h3
      cases h3
      rw [ih r l' h2 h4]

/-! ### C67: JSON output -/

theorem within_mono {n m : Nat} {j : Json} (h : Within n j) (hm : n ≤ m) : Within m j := by
  induction h generalizing m with
  | null => exact .null
  | bool => exact .bool
  | num => exact .num
  | str => exact .str
  | arr _ ih =>
    obtain ⟨k, rfl⟩ : ∃ k, m = k + 1 := ⟨m - 1, by omega⟩
    exact .arr fun j hj => ih j hj (by omega)
  | obj _ ih =>
    obtain ⟨k, rfl⟩ : ∃ k, m = k + 1 := ⟨m - 1, by omega⟩
    exact .obj fun j hj => ih j hj (by omega)

theorem quote_says (t : Bytes) : ∃ b u, jsonQuote t = ch '"' :: (b ++ [ch '"']) ∧ StringBody b u ∧ Shown t u := by
  obtain ⟨u, hu⟩ := shown_exists _ t (Nat.le_refl _)
  have := jsonStr_shown hu [] t.length ((jsonStrBody t.length t ++ 34 :: []).length + 1) (Nat.le_refl _) (by rw [List.length_append]; omega)
  obtain ⟨b, h1, h2⟩ := jsonStr_sound _ _ _ _ this
  refine ⟨b, u, ?_, h2, hu⟩
  have h3 := List.append_cancel_right h1
  rw [jsonQuote, h3]
  rfl

mutual
theorem print_says : (v : Value) → Numbers v → ∃ t j, jsonPrint (valueToJson v) = some t ∧ JsonSays t j ∧ WrittenAs v j ∧ Within (nesting v) j
  | .sym n, _ => by
    obtain ⟨b, u, h1, h2, h3⟩ := quote_says n
    exact ⟨_, _, by rw [valueToJson, jsonPrint, h1], .str h2, .sym h3, .str⟩
  | .str n, _ => by
    obtain ⟨b, u, h1, h2, h3⟩ := quote_says n
    exact ⟨_, _, by rw [valueToJson, jsonPrint, h1], .str h2, .str h3, .str⟩
  | .num x, h => by
    obtain ⟨hc, hx⟩ := h
    obtain ⟨t, ht⟩ := jsonFloat_fin x hx
    have hn := jsonNum_append x t [] hc ht (fun c hc => nomatch hc)
    obtain ⟨t', h1, h2, _⟩ := jsonNum_sound hn
    simp only [List.append_nil] at h1
    subst h1
    exact ⟨t, .num x, ht, .num h2, .num, .num⟩
  | .list [], _ => ⟨b! "[]", .arr [], rfl, .empty (w := []) (fun _ h => nomatch h), .list .nil, .arr (fun _ h => nomatch h)⟩
  | .list (v :: vs), h => by
    obtain ⟨t, l, h1, h2, h3, h4⟩ := prints_say (v :: vs) (by simp) h
    exact ⟨b! "[" ++ t ++ b! "]", .arr l, by rw [valueToJson, jsonPrint, h1], by simpa [ch] using JsonSays.arr h2, .list h3, .arr h4⟩
theorem prints_say : (vs : List Value) → vs ≠ [] → AllNumbers vs →
    ∃ t l, jsonPrints (valuesToJson vs) = some t ∧ JsonItems t l ∧ WrittenAll vs l ∧ ∀ j ∈ l, Within (nestingAll vs) j
  | [], h, _ => absurd rfl h
  | v :: vs, _, h => by
    obtain ⟨t, j, h1, h2, h3, h4⟩ := print_says v h.1
    cases vs with
    | nil =>
      refine ⟨t, [j], by simp [valuesToJson, jsonPrints, h1], ?_, .cons h3 .nil, ?_⟩
      · simpa using JsonItems.one (w := []) (v := []) (fun _ h => nomatch h) h2 (fun _ h => nomatch h)
      · intro x hx; rw [List.mem_singleton.1 hx]; exact within_mono h4 (Nat.le_max_left _ _)
    | cons v' vs =>
      obtain ⟨t', l, g1, g2, g3, g4⟩ := prints_say (v' :: vs) (by simp) h.2
      refine ⟨t ++ b! "," ++ t', j :: l, ?_, ?_, .cons h3 g3, ?_⟩
      · rw [valuesToJson] at g1
        simp [valuesToJson, jsonPrints, h1, g1]
      · simpa [ch] using JsonItems.more (w := []) (v := []) (fun _ h => nomatch h) h2 (fun _ h => nomatch h) g2
      · intro x hx
        rcases List.mem_cons.1 hx with rfl | hx
        · exact within_mono h4 (Nat.le_max_left _ _)
        · exact within_mono (g4 x hx) (Nat.le_max_right _ _)
end

/-- C67. What `texted parse --output-format json` writes is a sequence of JSON texts, one for each instruction: names and strings are strings
(with U+FFFD for the bytes that belong to no character), numbers are numbers and lists are arrays. -/
theorem C67_json_output (p : List Value) (hn : AllNumbers p) (hd : ∀ v ∈ p, nesting v ≤ 10000) :
    (writeJson p).err = none ∧ ∃ l, JsonStream (writeJson p).out l ∧ WrittenAll p l := by
  induction p with
  | nil => exact ⟨rfl, [], .done (fun _ h => nomatch h), .nil⟩
  | cons v p ih =>
    obtain ⟨t, j, h1, h2, h3, h4⟩ := print_says v hn.1
    obtain ⟨g1, l, g2, g3⟩ := ih hn.2 fun v hv => hd v (by simp [hv])
    have hw : writeJsonValue v = some (t ++ [nl]) := by rw [writeJsonValue, h1]; rfl
    have hout : writeJson (v :: p) = { writeJson p with out := t ++ [nl] ++ (writeJson p).out } := by rw [writeJson, hw]
    rw [hout]
    refine ⟨g1, j :: l, ?_, .cons h3 g3⟩
    have e : t ++ [nl] ++ (writeJson p).out = [] ++ (t ++ (nl :: (writeJson p).out)) := by simp
    simp only
    rw [e]
    refine .next (fun _ h => nomatch h) h2 (within_mono h4 (hd v (by simp))) (ends_says h2 (numStop_nl _)) ?_
    have hnl : Spaces [nl] := fun c hc => by rw [List.mem_singleton.1 hc]; decide
    generalize (writeJson p).out = out at g2
    cases g2 with
    | done hs => exact .done (fun c hc => (List.mem_cons.1 hc).elim (fun h => hnl c (by simp [h])) (hs c))
    | next hw' hb hd' he hr =>
      rename_i w b rest j' l'
      exact .next (w := nl :: w) (fun c hc => (List.mem_cons.1 hc).elim (fun h => hnl c (by simp [h])) (hw' c)) hb hd' he hr

/-! ### C72: requests and answers -/

/-- C72. The text of an answer as it travels is a JSON string, and it stands for exactly the text the client shows. -/
theorem C72_reply_json (t u : Bytes) : JsonText (jsonQuote t) (.str u) ↔ Shown t u := by
  rw [← jsonText_iff, C72_reply]


theorem stringBody_text {b t : Bytes} (h : StringBody b t) : ∃ cs, t = encodeAll cs := by
  induction h with
  | nil => exact ⟨[], rfl⟩
  | char c _ _ _ _ ih => obtain ⟨cs, rfl⟩ := ih; exact ⟨c :: cs, (encodeAll_cons _ _).symm⟩
  | bad _ _ ih => obtain ⟨cs, rfl⟩ := ih; exact ⟨_ :: cs, (encodeAll_cons _ _).symm⟩
  | escape he _ ih =>
    obtain ⟨cs, rfl⟩ := ih
    rename_i e c s t
    refine ⟨c :: cs, ?_⟩
    rw [encodeAll_cons]
    have : encodeRune c = [ch c] := by
      have key : ∀ p ∈ jsonEscapes, encodeRune p.2 = [ch p.2] := by decide +kernel
      exact key _ he
    rw [this]; rfl
  | unicode _ _ _ _ ih => obtain ⟨cs, rfl⟩ := ih; exact ⟨_ :: cs, (encodeAll_cons _ _).symm⟩
  | pair _ _ _ _ _ ih => obtain ⟨cs, rfl⟩ := ih; exact ⟨_ :: cs, (encodeAll_cons _ _).symm⟩
  | lone _ _ _ _ ih => obtain ⟨cs, rfl⟩ := ih; exact ⟨_ :: cs, (encodeAll_cons _ _).symm⟩

mutual
theorem says_textual {b : Bytes} {j : Json} (h : JsonSays b j) : Textual j := by
  match h with
  | .null => exact .null
  | .true => exact .bool
  | .false => exact .bool
  | .num _ => exact .num
  | .str h => obtain ⟨cs, rfl⟩ := stringBody_text h; exact .str cs
  | .empty _ => exact .arr .nil
  | .arr h => exact .arr (items_textual h)
  | .emptyObj _ => exact .obj .nil
  | .obj h => exact .obj (members_textual h)
theorem items_textual {b : Bytes} {l : List Json} (h : JsonItems b l) : TextualItems l := by
  match h with
  | .one _ h _ => exact .cons (says_textual h) .nil
  | .more _ h _ hr => exact .cons (says_textual h) (items_textual hr)
theorem members_textual {b : Bytes} {l : List (Bytes × Json)} (h : JsonMembers b l) : TextualMembers l := by
  match h with
  | .one _ hk _ _ h _ => obtain ⟨cs, rfl⟩ := stringBody_text hk; exact .cons cs (says_textual h) .nil
  | .more _ hk _ _ h _ hr => obtain ⟨cs, rfl⟩ := stringBody_text hk; exact .cons cs (says_textual h) (members_textual hr)
end

/-- C43. All strings of a JSON text are UTF-8. -/
theorem C43_strings (s : Bytes) (j : Json) (h : JsonText s j) : Textual j := by
  obtain ⟨_, _, _, _, _, h, _⟩ := h
  exact says_textual h

theorem textual_given {args : Json} (h : Textual args) {key : Bytes} {v : Json} (hg : Given args key v) : Textual v := by
  obtain ⟨before, after, rfl, _⟩ := hg
  cases h with
  | obj h =>
    induction before with
    | nil => cases h with | cons _ h _ => exact h
    | cons f before ih => cases h with | cons _ _ h => exact ih h

theorem textual_str {s : Bytes} (h : Textual (.str s)) : ∃ cs, s = encodeAll cs := by
  cases h with | str cs => exact ⟨cs, rfl⟩

theorem textual_items {l : List Json} (h : TextualItems l) : ∀ j ∈ l, Textual j := by
  induction l with
  | nil => intro j hj; cases hj
  | cons j l ih =>
    cases h with
    | cons h1 h2 =>
      intro x hx
      rcases List.mem_cons.1 hx with rfl | hx
      · exact h1
      · exact ih h2 x hx

/-- C72. The arguments of a call are a JSON text, so whatever its bytes are, the script and the file names of an edit_file call are UTF-8:
a file whose name is not cannot be edited through the server, and a script cannot insert ill-formed bytes literally. -/
theorem C72_request (request : Bytes) (args : Json) (hr : JsonText request args) (script : Bytes) (files : List Bytes)
    (h : EditCall args script files) : (∃ cs, script = encodeAll cs) ∧ ∀ f ∈ files, ∃ cs, f = encodeAll cs := by
  have ht := C43_strings request args hr
  refine ⟨textual_str (textual_given ht h.1), fun f hf => ?_⟩
  cases textual_given ht h.2.1 with
  | arr hl => exact textual_str (textual_items hl _ (List.mem_map_of_mem hf))

/-- C72. Likewise for the text and the script of texted_eval. -/
theorem C72_request_eval (request : Bytes) (args : Json) (hr : JsonText request args) (key s : Bytes) (h : Given args key (.str s)) :
    ∃ cs, s = encodeAll cs :=
  textual_str (textual_given (C43_strings request args hr) h)

/-! ### The hypotheses are met -/

mutual
/-- A test for equality, for the examples. -/
def Json.same : Json → Json → Bool
  | .null, .null => true
  | .bool a, .bool b => a = b
  | .num a, .num b => a = b
  | .str a, .str b => a = b
  | .arr a, .arr b => Json.sames a b
  | .obj a, .obj b => Json.sameFields a b
  | _, _ => false
@[inherit_doc Json.same]
def Json.sames : List Json → List Json → Bool
  | [], [] => true
  | x :: xs, y :: ys => Json.same x y && Json.sames xs ys
  | _, _ => false
@[inherit_doc Json.same]
def Json.sameFields : List (Bytes × Json) → List (Bytes × Json) → Bool
  | [], [] => true
  | (k, x) :: xs, (k', y) :: ys => k = k' && Json.same x y && Json.sameFields xs ys
  | _, _ => false
end

mutual
theorem same_eq : (a b : Json) → Json.same a b = true → a = b
  | .null, b, h => by cases b <;> simp_all [Json.same]
  | .bool _, b, h => by cases b <;> simp_all [Json.same]
  | .num _, b, h => by cases b <;> simp_all [Json.same]
  | .str _, b, h => by cases b <;> simp_all [Json.same]
  | .arr a, b, h => by
    cases b with
    | arr b => rw [sames_eq a b (by simpa [Json.same] using h)]
    | _ => simp [Json.same] at h
  | .obj a, b, h => by
    cases b with
    | obj b => rw [sameFields_eq a b (by simpa [Json.same] using h)]
    | _ => simp [Json.same] at h
theorem sames_eq : (a b : List Json) → Json.sames a b = true → a = b
  | [], b, h => by cases b <;> simp_all [Json.sames]
  | x :: xs, b, h => by
    cases b with
    | nil => simp [Json.sames] at h
    | cons y ys =>
      rw [Json.sames, Bool.and_eq_true] at h
      rw [same_eq x y h.1, sames_eq xs ys h.2]
theorem sameFields_eq : (a b : List (Bytes × Json)) → Json.sameFields a b = true → a = b
  | [], b, h => by cases b <;> simp_all [Json.sameFields]
  | (k, x) :: xs, b, h => by
    cases b with
    | nil => simp [Json.sameFields] at h
    | cons y ys =>
      obtain ⟨k', y⟩ := y
      rw [Json.sameFields, Bool.and_eq_true, Bool.and_eq_true, decide_eq_true_eq] at h
      rw [h.1.1, same_eq x y h.1.2, sameFields_eq xs ys h.2]
end

theorem jsonText_same (s : Bytes) (j : Json) (h : (jsonText s).any (Json.same · j) = true) : JsonText s j := by
  rw [Option.any_eq_true] at h
  obtain ⟨x, h1, h2⟩ := h
  rw [← jsonText_iff, h1, same_eq x j h2]

/-- A script with white space, escapes, a surrogate pair, a lone surrogate and ill-formed UTF-8 is a JSON text; what it means. -/
example : JsonText (b! " [ [\"insert\" ,\"a\\n\\uD83D\\ude00\\ud83dx\"], [\"goto-char\", -1.5E+1]\n]")
    (.arr [.arr [.str (b! "insert"), .str (b! "a\n😀\uFFFDx")], .arr [.str (b! "goto-char"), .num (.fin true 15 0)]]) :=
  jsonText_same _ _ (by decide +kernel)

/-- Not JSON: a trailing comma, a leading zero, a raw newline in a string, a single quote, two texts, a comment. -/
example : ∀ s ∈ [b! "[[\"a\"],]", b! "[[\"a\",01]]", b! "[[\"a\nb\"]]", b! "[['a']]", b! "[[\"a\"]] []", b! "[] ; x", b! "[[\"a\", .5]]"],
    ∀ j, ¬ JsonText s j := by
  intro s hs j h
  rw [← jsonText_iff] at h
  have : ∀ s ∈ [b! "[[\"a\"],]", b! "[[\"a\",01]]", b! "[[\"a\nb\"]]", b! "[['a']]", b! "[[\"a\"]] []", b! "[] ; x", b! "[[\"a\", .5]]"],
    jsonText s = none := by decide +kernel
  rw [this s hs] at h
  cases h

/-- In a sequence the texts need no white space between them; digits go to one number as long as they can. -/
example : ∃ l, JsonStream (b! "[\"a\"][\"b\",2]01 12.5\"x\"") l ∧
    EntriesAre l [.list [.sym (b! "a")], .list [.sym (b! "b"), .num (.fin false 1 1)], .num (.fin false 0 0), .num (.fin false 1 0),
      .num (.fin false 25 (-1)), .sym (b! "x")] := by
  rw [← C67_json_input]
  decide +kernel

example : ¬ ∃ l vs, JsonStream (b! "1.") l ∧ EntriesAre l vs := by
  rintro ⟨l, vs, h⟩
  have := (C67_json_input (b! "1.") vs).2 ⟨l, h⟩
  have h2 : parseJsonReader (b! "1.") = .error (b! "JSON decode error") := by decide +kernel
  rw [h2] at this
  cases this

/-- A call of edit_file as it travels. -/
example : ∃ args, JsonText (b! "{\"files\": [\"a.txt\"], \"script\": \"insert \\\"é\\\"\"}") args ∧
    EditCall args (b! "insert \"é\"") [b! "a.txt"] :=
  ⟨.obj [(b! "files", .arr [.str (b! "a.txt")]), (b! "script", .str (b! "insert \"é\""))],
    jsonText_same _ _ (by decide +kernel), ⟨[_], [], rfl, fun _ h => nomatch h⟩, ⟨[], [_], rfl, by decide⟩, by decide⟩

example : AllNumbers [.list [.sym (b! "insert"), .str [255], .num (.fin false 1 1)]] := by
  refine ⟨⟨trivial, trivial, ⟨?_, _, _, _, rfl⟩, trivial⟩, trivial⟩
  unfold F64.Canon
  decide

end Texted
