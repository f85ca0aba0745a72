import Verif.Props.Utf8Script
import Verif.Props.Recipes
import Verif.Props.EverydayBackup
/- C73 for lists of files and for the command line. -/
namespace Texted
open Spec

/-- **Editing several files**: every file that held UTF-8 text holds UTF-8 text again if its result reports success; a tidy script is needed as in
`C73_script`. -/
theorem C73_edit_files [Ext] [TextExt] (fs : List Bytes) (hnd : fs.Nodup) (script format : Bytes) (w w' : World) (rs : List EditResult)
    (hT : ∀ p, parseScript format script = .ok p → Tidy true true (postorders p) ∧ b! "beginning-of-line" ∉ postorders p)
    (hx : format = b! "json" ∨ ¬ EscapeIn b! "x01234567" script)
    (h : Ends (editFilesWithFormat fs script format) w rs w') (r : EditResult) (hr : r ∈ rs) (hs : r.success = true) (c : Bytes)
    (hc : w.files r.filename = some c) (hu : Utf8Text c) : ∃ t, w'.files r.filename = some t ∧ Utf8Text t := by
  have ho := ((C30_independent_format fs hnd script format w rs w').1 h).2.1 r hr
  have he : r.error = none := by
    cases he : r.error with
    | none => rfl
    | some e => rw [EditResult.success, he] at hs; cases hs
  rw [he, hc] at ho
  generalize ha : w'.files r.filename = after at ho
  generalize hb : (some c : Option Bytes) = before at ho
  cases ho with
  | edited c' t hx' =>
    cases hb
    exact ⟨t, rfl, C73_script c script format t hu hT hx hx'⟩

section
variable [Ext] (helps : Bytes → Bytes) (others : Bytes → List Bytes → Proc Nat)

/-- **The command line**: after `texted edit -i -s SCRIPT -- FILES...` with a tidy script, every file that held UTF-8 text holds UTF-8 text, if the
exit status is 0. -/
theorem C73_command_line [TextExt] (script : Bytes) (files : List Bytes) (hs : script ≠ []) (hf : files ≠ []) (hnd : files.Nodup) (w w' : World)
    (hT : ∀ p, parseString script = .ok p → Tidy true true (postorders p) ∧ b! "beginning-of-line" ∉ postorders p)
    (hx : ¬ EscapeIn b! "x01234567" script)
    (h : Ends (textedMain helps others (b! "edit" :: b! "-i" :: b! "-s" :: script :: b! "--" :: files)) w 0 w')
    (hu : ∀ f ∈ files, ∀ c, w.files f = some c → Utf8Text c) : ∀ f ∈ files, ∃ t, w'.files f = some t ∧ Utf8Text t := by
  intro f hff
  obtain ⟨c, t, hc, h1, h2⟩ := (C79_command_line helps others script files hs hf hnd w w' 0 h).2.2.1 rfl f hff
  exact ⟨t, h2, C73_script c script (b! "shell") t (hu f hff c hc) hT (.inr hx) h1⟩

/-- **The command line, ASCII**: whatever the (ASCII) script does, whatever fails and wherever the command crashes, a file with ASCII text holds ASCII
text at every moment. -/
theorem C73_ascii_any_moment (script : Bytes) (files : List Bytes) (hnd : files.Nodup) (w w' : World) (hs : AsciiText script)
    (hx : ¬ EscapeIn b! "uUx01234567" script)
    (h : Sees (textedMain helps others (b! "edit" :: b! "-i" :: b! "-s" :: script :: b! "--" :: files)) w w') (f : Bytes) (hf : f ∈ files)
    (c : Bytes) (hc : w.files f = some c) (ha : AsciiText c) : ∃ t, w'.files f = some t ∧ AsciiText t := by
  have h1 := (C79_any_moment helps others script files hnd w w' h).2 f hf
  rw [hc] at h1
  generalize hb : (some c : Option Bytes) = before at h1
  generalize hw : w'.files f = after at h1
  cases h1 with
  | same => subst hb; exact ⟨c, rfl, ha⟩
  | writing c' t n h2 h3 =>
    cases hb
    refine ⟨_, rfl, fun x hx' => ?_⟩
    have h4 : executeScript c script = .ok t := by
      have : executeScriptWithFormat c script (b! "shell") = executeScript c script := rfl
      rw [← this]; exact h2
    exact C73_ascii_script c script t ha hs hx h4 x (List.mem_of_mem_take hx')

/-- **Search and replace on the command line keeps UTF-8 text**, for all texts that need no escapes, whatever the regular expression engine. -/
theorem C73_search_and_replace {old new : List Char} (ho : ∀ c ∈ old, PlainChar c) (hn : ∀ c ∈ new, PlainChar c) (hne : old ≠ [])
    (hlen : (encodeAll (replaceScript old new)).length < 65536) (files : List Bytes) (hf : files ≠ []) (hnd : files.Nodup) (w w' : World)
    (h : Ends (textedMain helps others (b! "edit" :: b! "-i" :: b! "-s" :: encodeAll (replaceScript old new) :: b! "--" :: files)) w 0 w')
    (hu : ∀ f ∈ files, ∀ c, w.files f = some c → Utf8Text c) : ∀ f ∈ files, ∃ t, w'.files f = some t ∧ Utf8Text t := by
  intro f hff
  obtain ⟨u, v, h1, _, h3⟩ := ((C79_search_and_replace helps others ho hn hne hlen files hf hnd w).1 0 w' h).1 rfl f hff
  have ht := hu f hff _ h1
  refine ⟨_, h3, ?_⟩
  obtain ⟨h4, h5⟩ := cut_occurs ht (utf8_encodeAll.2 ⟨old, rfl⟩) (encodeAll_nonempty hne) ⟨u, v, rfl, rfl⟩
  have e1 : (u ++ encodeAll old ++ v).take u.length = u := by rw [List.append_assoc, List.take_left]
  have e2 : (u ++ encodeAll old ++ v).drop (u.length + (encodeAll old).length) = v := by rw [← List.length_append, List.drop_left]
  have h6 := h4.2.1
  have h7 := h5.2.2
  rw [e1] at h6
  rw [e2] at h7
  exact (h6.append (utf8_encodeAll.2 ⟨new, rfl⟩)).append h7

end

/-- **Naive claim refuted**: a write that fails on the way can leave half a character; only a successful edit keeps UTF-8 text. -/
theorem C73_false_failed_write [Ext] : ∃ (script : Bytes) (w w' : World) (e : Bytes), w.files (b! "f") = some [] ∧
    Ends (editFile (b! "f") script) w (some e) w' ∧ w'.files (b! "f") = some [0xC3] ∧ ¬ Utf8Text [0xC3] := by
  let w : World := ⟨fun q => if q = b! "f" then some [] else none, [], []⟩
  refine ⟨b! "insert \"é\"", w, w.put (b! "f") [0xC3], b! "failed to write file f: no space left on device", rfl, ?_, World.put_same _ _ _, by decide⟩
  refine (C29_outcomes _ _ _ _ _).2 ⟨?_, sameExcept_put w _ _⟩
  rw [World.put_same]
  exact .cut [] [0xC3, 0xA9] (b! "no space left on device") 1 rfl (by decide)

/-- Non-vacuity: an é is replaced by an è in two files. -/
example : let w : World := ⟨fun q => if q = b! "f" then some (b! "aé") else if q = b! "g" then some (b! "éé") else none, [], []⟩
    let r := @runOk _ (fun _ => []) (@textedMain litExt (fun _ => []) (fun _ _ => .panic)
      [b! "edit", b! "-i", b! "-s", encodeAll (replaceScript "é".toList "è".toList), b! "--", b! "f", b! "g"]) w
    r.1 = some 0 ∧ r.2.files (b! "f") = some (b! "aè") ∧ r.2.files (b! "g") = some (b! "èé") := by decide +kernel

end Texted
