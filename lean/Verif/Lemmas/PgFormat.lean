import Verif.Lemmas.PgJson
import Verif.Lemmas.PgReader
import Verif.Lemmas.JsonGrammar
import Verif.Model.TestRunner
/-
`ParseJSONString` on texts of any length below 2^60, and `ParseFormat` (/repo/edlisp/parser/linebased.go:88-100), as they are written in Go.
-/
set_option linter.unusedSectionVars false
namespace Texted
open Spec
variable [Ext] {n d : Nat} {w : PgW}

mutual
theorem says_parts : ∀ {b : Bytes} {j : Json}, JsonSays b j → j.parts ≤ b.length
  | _, _, .null => by decide
  | _, _, .true => by decide
  | _, _, .false => by decide
  | b, _, .num h => by
    obtain ⟨c, r, e, _⟩ := says_head (.num h)
    rw [e, Json.parts, List.length_cons]; omega
  | _, _, .str _ => by simp [Json.parts]
  | _, _, .empty _ => by simp [Json.parts, Json.partsAll]
  | _, _, .arr h => by
    have := items_parts h
    simp only [Json.parts, List.length_cons, List.length_append, List.length_nil]; omega
  | _, _, .emptyObj _ => by simp [Json.parts]
  | _, _, .obj _ => by simp [Json.parts]
theorem items_parts : ∀ {b : Bytes} {l : List Json}, JsonItems b l → Json.partsAll l ≤ b.length
  | _, _, .one _ h _ => by
    have := says_parts h
    simp only [Json.partsAll, List.length_append]; omega
  | _, _, .more _ h _ hr => by
    have := says_parts h
    have := items_parts hr
    simp only [Json.partsAll, List.length_append, List.length_cons]; omega
end

theorem jsonArray_parts {s : Bytes} {l : List Json} (h : jsonArray s = some l) : Json.partsAll l ≤ s.length := by
  unfold jsonArray at h
  split at h
  · rename_i hj
    obtain ⟨a, b, c, e, _, hb, _, _⟩ := (jsonText_iff _ _).1 hj
    have hp := says_parts hb
    rw [Option.some.inj h, Json.parts] at hp
    rw [e, List.length_append, List.length_append]; omega
  · rw [← Option.some.inj h]; exact Nat.zero_le _
  · exact nomatch h

/-- What `ParseJSONString` returns: as the model says, except that the text of the error for a text that is no JSON array goes on with
what package encoding/json says. -/
def jsonResult (w : PgW) (s : Bytes) : PgOut :=
  if (jsonArray s).isSome then pgSlice w (parseJsonString s) else .ret [.nil, .err (b! "JSON unmarshal error: " ++ w.jsonError s)] w

theorem pg_ParseJSONString (s : Bytes) (hs : s.length < 4611686018427387904) (hd : 2 * s.length + 2 < d) :
    pgRun n d .ParseJSONString [.str s] w = jsonResult w s := by
  obtain ⟨d, rfl⟩ : ∃ e, d = e + 1 := ⟨d - 1, by omega⟩
  unfold jsonResult
  cases h : jsonArray s with
  | some l =>
    have hl := jsonArray_parts h
    rw [pg_ParseJSONString_some s l h (by omega) (by omega)]; rfl
  | none => rw [pg_ParseJSONString_none s h]; rfl

/-- What `ParseFormat` returns. -/
def formatResult (w : PgW) (format s : Bytes) : PgOut :=
  if format = b! "shell" then pgSome w (parseString s)
  else if format = b! "json" then jsonResult w s
  else pgSome w (parseSexp s)

theorem pg_tail (x y : PgVar) (hxy : x ≠ y) (f : PgFn) (v : PgVar) (r : PgOut) (st : PgSt) (s : Bytes) (hv : st.vars v = .str s) (he : pgRun n d f [.str s] st.w = r)
    (hr : ∃ a b w', r = .ret [a, b] w') :
    PgS.exec n (pgRun n d) (.seq (.callFn [x, y] f (.cons (.var v) .nil)) (.ret (.cons (.var x) (.cons (.var y) .nil)))) st = r := by
  obtain ⟨a, b, w', rfl⟩ := hr
  pg [hv, he]
  simp only [hxy, if_false]

theorem pgSome_ret {r : Res Bytes (List Value)} (h : r ≠ .panic) : ∃ a b w', pgSome w r = .ret [a, b] w' := by
  cases r with
  | ok vs => exact ⟨_, _, _, rfl⟩
  | err e => exact ⟨_, _, _, rfl⟩
  | panic => exact absurd rfl h

theorem pg_ParseFormat (format s : Bytes) (hs : 4 * s.length < 4611686018427387904) (hn : 8 * s.length + 22 ≤ n) (hd : 8 * s.length + 22 ≤ d) :
    pgRun n d .ParseFormat [.str format, .str s] w = formatResult w format s := by
  obtain ⟨d, rfl⟩ : ∃ e, d = e + 1 := ⟨d - 1, by omega⟩
  have h₁ := pg_ParseString (n := n) (d := d) (w := w) s hs (by omega) (by omega)
  have h₂ := pg_ParseSexp (n := n) (d := d) (w := w) s hs (by omega) (by omega)
  have h₃ := pg_ParseJSONString (n := n) (d := d) (w := w) s (by omega) (by omega)
  rw [pgRun_succ _ _ _ _ _ _ rfl]
  simp only [PgFn.body, pgParseFormat, pgexec_if, pgexec_if]
  have ht₁ : ∃ a b w', pgSome w (parseString s) = .ret [a, b] w' := pgSome_ret (fun h => by rcases C42_total s with ⟨_, e⟩ | ⟨_, e⟩ <;> rw [e] at h <;> exact nomatch h)
  have ht₂ : ∃ a b w', pgSome w (parseSexp s) = .ret [a, b] w' := pgSome_ret (fun h => by rcases C42_sexp_total s with ⟨_, e, _⟩ | ⟨_, e⟩ <;> rw [e] at h <;> exact nomatch h)
  have ht₃ : ∃ a b w', jsonResult w s = .ret [a, b] w' := by
    unfold jsonResult
    split
    · cases parseJsonString s with
      | ok vs => exact ⟨_, _, _, rfl⟩
      | error e => exact ⟨_, _, _, rfl⟩
    · exact ⟨_, _, _, rfl⟩
  unfold formatResult
  by_cases h₄ : format = b! "sexp"
  · subst h₄
    refine Eq.trans (b := pgSome w (parseSexp s)) ?_ rfl
    exact pg_tail .tmp1 .tmp2 (by decide) .ParseSexp .input _ _ s rfl h₂ ht₂
  by_cases h₅ : format = []
  · subst h₅
    exact pg_tail .tmp1 .tmp2 (by decide) .ParseSexp .input _ _ s rfl h₂ ht₂
  by_cases h₆ : format = b! "shell"
  · subst h₆
    exact pg_tail .tmp3 .tmp4 (by decide) .ParseString .input _ _ s rfl h₁ ht₁
  by_cases h₇ : format = b! "json"
  · subst h₇
    exact pg_tail .tmp5 .tmp6 (by decide) .ParseJSONString .input _ _ s rfl h₃ ht₃
  rw [if_neg h₆, if_neg h₇]
  have e₄ : decide (format = b! "sexp") = false := decide_eq_false h₄
  have e₅ : decide (format = b! "") = false := decide_eq_false h₅
  have e₆ : decide (format = b! "shell") = false := decide_eq_false h₆
  have e₇ : decide (format = b! "json") = false := decide_eq_false h₇
  pg [e₄, e₅, e₆, e₇, h₂]
  obtain ⟨a, b, w', e⟩ := ht₂
  rw [e]
  pg []

end Texted
