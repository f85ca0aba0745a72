import Verif.Lemmas.JsonText
import Verif.Spec.Json
/-
Reading back the printed JSON of a value.
-/
namespace Texted
open Spec

/-- First bytes of printed values. -/
def JHead (c : UInt8) : Prop := c = 34 ∨ c = 91 ∨ c = 45 ∨ IsDig c

theorem JHead.space {c : UInt8} (h : JHead c) : jsonSpace c = false := by
  rcases h with rfl | rfl | rfl | h
  · decide
  · decide
  · decide
  · simp [jsonSpace, dig_ne h 32 (by decide), dig_ne h 9 (by decide), dig_ne h 13 (by decide), dig_ne h 10 (by decide)]

theorem JHead.ne {c : UInt8} (h : JHead c) (k : UInt8) (hk : (k.toNat < 48 ∨ 57 < k.toNat) ∧ k ≠ 34 ∧ k ≠ 91 ∧ k ≠ 45) : c ≠ k := by
  rcases h with rfl | rfl | rfl | h
  · exact fun h => hk.2.1 h.symm
  · exact fun h => hk.2.2.1 h.symm
  · exact fun h => hk.2.2.2 h.symm
  · exact dig_ne h k hk.1

theorem jws_cons (c : UInt8) (s : Bytes) (h : jsonSpace c = false) : jws (c :: s) = c :: s := by
  simp [jws, h]

theorem hasPrefix_ne (c k : UInt8) (s p : Bytes) (h : c ≠ k) : hasPrefix (c :: s) (k :: p) = false := by
  have : (k == c) = false := by simp [Ne.symm h]
  simp [hasPrefix, List.isPrefixOf, this]

theorem jsonFloat_fin (x : F64) (h : ∃ neg m e, x = .fin neg m e) : ∃ t, jsonFloat x = some t := by
  obtain ⟨neg, m, e, rfl⟩ := h
  have := jsonFloat_isSome (.fin neg m e)
  exact Option.isSome_iff_exists.1 this

theorem jsonPrints_cons (v : Value) (vs : List Value) (t ts : Bytes) (h1 : jsonPrint (valueToJson v) = some t)
    (h2 : jsonPrints (valuesToJson vs) = some ts) :
    jsonPrints (valuesToJson (v :: vs)) = some (if vs = [] then t else t ++ b! "," ++ ts) := by
  cases vs with
  | nil => simp [valuesToJson, jsonPrints, h1]
  | cons w ws => simp only [valuesToJson, jsonPrints] at h2 ⊢; simp [h1, h2]

theorem jsonQuote_text (cs : List Char) : jsonQuote (encodeAll cs) = [34] ++ (cs.flatMap jsonEscape ++ [34]) := by
  rw [jsonQuote, jsonStrBody_encodeAll cs _ (Nat.le_refl _), List.append_assoc]

/-- What the printer writes for a value and what the reader makes of it. -/
def ReadsBack (v : Value) (t : Bytes) : Prop :=
  ∀ f d rest, 2 * t.length ≤ f → nesting v ≤ d → NumStop rest → jsonValue f d (t ++ rest) = some (valueToJson v, rest)

theorem readsBack_quote (v : Value) (cs : List Char) (hv : valueToJson v = .str (encodeAll cs)) : ReadsBack v ([34] ++ (cs.flatMap jsonEscape ++ [34])) := by
  intro f d rest hf _ _
  cases f with
  | zero => simp at hf
  | succ f =>
    have := jsonStr_escapes cs rest ((cs.flatMap jsonEscape ++ 34 :: rest).length + 1) (by simp; omega)
    rw [show [34] ++ (cs.flatMap jsonEscape ++ [34]) ++ rest = 34 :: (cs.flatMap jsonEscape ++ 34 :: rest) by simp, jsonValue, if_pos rfl, this, hv]

theorem numStop_comma (r : Bytes) : NumStop (44 :: r) := by intro c hc; simp at hc; subst hc; decide
theorem numStop_bracket (r : Bytes) : NumStop (93 :: r) := by intro c hc; simp at hc; subst hc; decide
theorem numStop_nl (r : Bytes) : NumStop (10 :: r) := by intro c hc; simp at hc; subst hc; decide

mutual
theorem jsonPrint_reads : (v : Value) → TextValue v → ∃ c t, jsonPrint (valueToJson v) = some (c :: t) ∧ JHead c ∧ ReadsBack v (c :: t)
  | .sym n, h => by
    obtain ⟨cs, rfl⟩ := h
    exact ⟨34, _, by rw [valueToJson, jsonPrint, jsonQuote_text]; rfl, Or.inl rfl, readsBack_quote _ cs rfl⟩
  | .str n, h => by
    obtain ⟨cs, rfl⟩ := h
    exact ⟨34, _, by rw [valueToJson, jsonPrint, jsonQuote_text]; rfl, Or.inl rfl, readsBack_quote _ cs rfl⟩
  | .num x, h => by
    obtain ⟨hc, hx⟩ := h
    obtain ⟨t, ht⟩ := jsonFloat_fin x hx
    obtain ⟨hj, _⟩ := jsonFloat_read x t hc ht
    obtain ⟨c, r, rfl, hcr⟩ := hj.head
    refine ⟨c, r, ht, Or.inr (Or.inr hcr), ?_⟩
    intro f d rest hf _ hs
    have hnum := jsonNum_append x (c :: r) rest hc ht hs
    have hk : ∀ k : UInt8, (k.toNat < 48 ∨ 57 < k.toNat) → k ≠ 45 → c ≠ k := by
      intro k hk h45
      rcases hcr with rfl | hd
      · exact fun h => h45 h.symm
      · exact dig_ne hd k hk
    cases f with
    | zero => simp at hf
    | succ f =>
      rw [List.cons_append] at hnum ⊢
      rw [jsonValue, if_neg (hk _ (by decide) (by decide)), if_neg (hk _ (by decide) (by decide)), if_neg (hk _ (by decide) (by decide)),
        show b! "true" = 116 :: b! "rue" from rfl, show b! "false" = 102 :: b! "alse" from rfl, show b! "null" = 110 :: b! "ull" from rfl,
        hasPrefix_ne c 116 _ _ (hk _ (by decide) (by decide)), hasPrefix_ne c 102 _ _ (hk _ (by decide) (by decide)),
        hasPrefix_ne c 110 _ _ (hk _ (by decide) (by decide)), hnum]
      rfl
  | .list [], _ => by
    refine ⟨91, [93], rfl, Or.inr (Or.inl rfl), ?_⟩
    intro f d rest hf hd _
    cases f with
    | zero => simp at hf
    | succ f =>
      have hd0 : d ≠ 0 := by simp only [nesting] at hd; omega
      simp [jsonValue, hd0, jws_cons 93 rest (by decide), valueToJson, valuesToJson]
  | .list (v :: vs), h => by
    obtain ⟨c, t, h1, h2, h3⟩ := jsonPrints_reads (v :: vs) (by simp) h
    refine ⟨91, c :: (t ++ [93]), ?_, Or.inr (Or.inl rfl), ?_⟩
    · rw [valueToJson, jsonPrint, h1]; rfl
    · intro f d rest hf hd _
      cases f with
      | zero => simp at hf
      | succ f =>
        simp only [nesting] at hd
        simp only [List.length_cons, List.length_append] at hf
        have hr := h3 f (d - 1) rest (by simp; omega) (by omega)
        have hd0 : d ≠ 0 := by omega
        have e : 91 :: c :: (t ++ [93]) ++ rest = 91 :: (c :: t ++ 93 :: rest) := by simp
        rw [e, jsonValue, if_neg (by decide), if_pos rfl, if_neg hd0]
        rw [show jws (c :: t ++ 93 :: rest) = c :: (t ++ 93 :: rest) from jws_cons _ _ h2.space]
        split
        · rename_i heq
          exact absurd (List.cons.inj heq).1 (h2.ne _ (by decide))
        · rename_i s' _ heq
          rw [show c :: (t ++ 93 :: rest) = c :: t ++ 93 :: rest from rfl, hr]
          rfl
/-- The elements of a list, up to and including the closing bracket. -/
theorem jsonPrints_reads : (l : List Value) → l ≠ [] → TextValues l → ∃ c t, jsonPrints (valuesToJson l) = some (c :: t) ∧ JHead c ∧
      ∀ f d rest, 2 * (c :: t).length + 1 ≤ f → nestingAll l ≤ d →
        jsonElems f d (c :: t ++ 93 :: rest) = some (valuesToJson l, rest)
  | [], hne, _ => absurd rfl hne
  | [v], _, h => by
    obtain ⟨c, t, h1, h2, h3⟩ := jsonPrint_reads v h.1
    refine ⟨c, t, by simp [valuesToJson, jsonPrints, h1], h2, ?_⟩
    intro f d rest hf hd
    cases f with
    | zero => omega
    | succ f =>
      simp only [nestingAll] at hd
      rw [jsonElems, h3 f d (93 :: rest) (by omega) (by omega) (numStop_bracket _)]
      simp only
      rw [jws_cons 93 _ (by decide)]
      rfl
  | v :: w :: ws, _, h => by
    obtain ⟨c, t, h1, h2, h3⟩ := jsonPrint_reads v h.1
    obtain ⟨c', t', h1', h2', h3'⟩ := jsonPrints_reads (w :: ws) (by simp) h.2
    refine ⟨c, t ++ 44 :: c' :: t', by rw [jsonPrints_cons v (w :: ws) _ _ h1 h1']; simp, h2, ?_⟩
    intro f d rest hf hd
    cases f with
    | zero => omega
    | succ f =>
      simp only [List.length_cons, List.length_append] at hf
      rw [nestingAll] at hd
      have e : c :: (t ++ 44 :: c' :: t') ++ 93 :: rest = c :: t ++ 44 :: (c' :: t' ++ 93 :: rest) := by simp
      rw [e, jsonElems, h3 f d _ (by simp; omega) (by omega) (numStop_comma _)]
      simp only
      rw [jws_cons 44 _ (by decide)]
      simp only
      rw [show jws (c' :: t' ++ 93 :: rest) = c' :: t' ++ 93 :: rest from jws_cons _ _ h2'.space,
        h3' f d rest (by simp; omega) (by omega)]
      rfl
end

end Texted
