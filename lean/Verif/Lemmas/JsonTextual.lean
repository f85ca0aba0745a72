import Verif.Lemmas.Canon
import Verif.Props.Json
/- What the JSON decoder returns is textual: strings are UTF-8, numbers are finite float64s, nesting is limited. -/
namespace Texted
open Spec

mutual
/-- A JSON tree whose arrays contain only UTF-8 strings and finite numbers (objects are of no interest: they are refused). -/
def TextTree : Json → Prop
  | .str s => ∃ cs, s = encodeAll cs
  | .num x => x.Canon ∧ ∃ neg m e, x = .fin neg m e
  | .arr l => TextTrees l
  | _ => True
@[inherit_doc TextTree]
def TextTrees : List Json → Prop
  | [] => True
  | j :: l => TextTree j ∧ TextTrees l
end

mutual
/-- How deeply arrays are nested. -/
def jdepth : Json → Nat
  | .arr l => jdepths l + 1
  | _ => 0
@[inherit_doc jdepth]
def jdepths : List Json → Nat
  | [] => 0
  | j :: l => max (jdepth j) (jdepths l)
end

mutual
theorem textTree_value : (v : Value) → TextTree (valueToJson v) → TextValue v
  | .sym _, h => h
  | .str _, h => h
  | .num _, h => h
  | .list l, h => textTrees_values l h
theorem textTrees_values : (l : List Value) → TextTrees (valuesToJson l) → TextValues l
  | [], _ => trivial
  | v :: l, h => ⟨textTree_value v h.1, textTrees_values l h.2⟩
end

mutual
theorem jdepth_value : (v : Value) → jdepth (valueToJson v) = nesting v
  | .sym _ => rfl
  | .str _ => rfl
  | .num _ => rfl
  | .list l => by rw [valueToJson, jdepth, nesting, jdepths_values l]
theorem jdepths_values : (l : List Value) → jdepths (valuesToJson l) = nestingAll l
  | [] => rfl
  | v :: l => by rw [valuesToJson, jdepths, nestingAll, jdepth_value v, jdepths_values l]
end

theorem encodeAll_ascii1 (c : UInt8) (h : c.toNat < 128) : ∃ cs, [c] = encodeAll cs :=
  ⟨[Char.ofNat c.toNat], by rw [encodeAll_cons, encodeRune_ascii _ h, encodeAll_nil]; simp⟩

theorem jsonChar_text {s out r : Bytes} (h : jsonChar s = some (out, r)) : ∃ cs, out = encodeAll cs := by
  cases s with
  | nil => cases h
  | cons c s =>
    unfold jsonChar at h
    simp only at h
    split at h
    · cases s with
      | nil => cases h
      | cons e s =>
        simp only at h
        split at h
        · rename_i he; cases h
          rcases he with rfl | rfl | rfl <;> exact encodeAll_ascii1 _ (by decide)
        repeat (split at h; · (cases h; exact encodeAll_ascii1 _ (by decide)))
        split at h
        · split at h <;> cases h
          exact ⟨[_], (List.append_nil _).symm⟩
        · cases h
    · split at h
      · cases h
      · split at h
        · rename_i hc; cases h; exact encodeAll_ascii1 _ hc
        · cases h; exact ⟨[_], (List.append_nil _).symm⟩

theorem jsonStr_text : ∀ (f : Nat) (s out r : Bytes), jsonStr f s = some (out, r) → ∃ cs, out = encodeAll cs
  | 0, s, out, r, h => by cases h
  | f + 1, [], out, r, h => by cases h
  | f + 1, c :: s, out, r, h => by
    rw [jsonStr] at h
    split at h
    · cases h; exact ⟨[], rfl⟩
    · split at h
      · cases h
      · rename_i o r' hc
        split at h
        · cases h
        · rename_i more rest hm
          cases h
          obtain ⟨a, rfl⟩ := jsonChar_text hc
          obtain ⟨b, rfl⟩ := jsonStr_text f _ _ _ hm
          exact ⟨a ++ b, (encodeAll_append a b).symm⟩

theorem roundRat_fin_or_inf (neg : Bool) (num den : Nat) :
    (∃ n, F64.roundRat neg num den = .inf n) ∨ ∃ n m e, F64.roundRat neg num den = .fin n m e := by
  have hmk : ∀ q e, ∃ m e', F64.mk neg q e = .fin neg m e' := by
    intro q e; unfold F64.mk; split
    · exact ⟨_, _, rfl⟩
    · exact ⟨_, _, rfl⟩
  unfold F64.roundRat
  split
  · exact .inr ⟨_, _, _, rfl⟩
  · have key : ∀ x : F64, (∃ m e, x = .fin neg m e) →
        (∃ n, (match x with | .fin _ m e => if 0 < e + (m.log2 : Int) - 1023 then F64.inf neg else x | x => x : F64) = .inf n) ∨
        ∃ n m e, (match x with | .fin _ m e => if 0 < e + (m.log2 : Int) - 1023 then F64.inf neg else x | x => x : F64) = .fin n m e := by
      rintro x ⟨m, e, rfl⟩
      simp only
      split
      · exact .inl ⟨_, rfl⟩
      · exact .inr ⟨_, _, _, rfl⟩
    exact key _ (hmk _ _)

theorem parseFloat_finite {s : Bytes} {x : F64} (hs : parseSpecial s = none) (h : parseFloat s = some x) :
    ∃ n m e, x = .fin n m e := by
  unfold parseFloat at h
  rw [hs] at h
  simp only at h
  have hsc : ∀ neg d b k, (∃ n, scaled neg d b k = .inf n) ∨ ∃ n m e, scaled neg d b k = .fin n m e := by
    intro neg d b k
    unfold scaled
    split <;> exact roundRat_fin_or_inf _ _ _
  split at h
  · cases h
  · rename_i hr
    have hx : (∃ n, x = .inf n) ∨ ∃ n m e, x = .fin n m e := by
      rw [readFloat] at h
      simp only at h
      split at h
      · cases h
      · split at h
        · cases h
        · split at h
          · cases h
          · split at h <;> cases h <;> exact hsc _ _ _ _
    rcases hx with ⟨n, rfl⟩ | hx
    · exact absurd h (hr n)
    · exact hx

theorem digits1_head {s d r : Bytes} (h : digits1 s = some (d, r)) : ∃ c t, d = c :: t ∧ isDigit c = true := by
  unfold digits1 at h
  split at h
  · cases h
  · rename_i hne
    cases h
    cases s with
    | nil => exact absurd rfl hne
    | cons c s =>
      rw [List.takeWhile_cons] at hne ⊢
      split at hne
      · rename_i hc; rw [if_pos hc]; exact ⟨c, _, rfl, hc⟩
      · exact absurd rfl hne

theorem jsonInt_head {s d r : Bytes} (h : jsonInt s = some (d, r)) : ∃ c t, d = c :: t ∧ isDigit c = true := by
  cases s with
  | nil => cases h
  | cons c s =>
    rw [jsonInt] at h
    split at h
    · rename_i hc; cases h; subst hc; exact ⟨48, [], rfl, by decide⟩
    · exact digits1_head h

theorem jsonNum_finite {s r : Bytes} {x : F64} (h : jsonNum s = some (x, r)) : x.Canon ∧ ∃ n m e, x = .fin n m e := by
  unfold jsonNum at h
  split at h
  · cases h
  · rename_i t r' ht
    split at h
    · rename_i y hy
      cases h
      refine ⟨parseFloat_canon hy, parseFloat_finite ?_ hy⟩
      unfold jsonNumText at ht
      split at ht
      · cases ht
      · rename_i i q hi
        split at ht
        · cases ht
        · rename_i fr q' _
          split at ht
          · cases ht
          · rename_i e u _
            cases ht
            obtain ⟨c, t, rfl, hc⟩ := jsonInt_head hi
            have hd : IsDig c := by
              simp only [isDigit, Bool.and_eq_true, decide_eq_true_eq] at hc
              exact ⟨hc.1, hc.2⟩
            have hm : (jsonMinus s).1 = [] ∨ (jsonMinus s).1 = [45] := by
              unfold jsonMinus; split
              · exact .inr rfl
              · exact .inl rfl
            rcases hm with hm | hm <;> rw [hm]
            · have := parseSpecial_dig false c (t ++ fr ++ e) hd; simpa [signText] using this
            · have := parseSpecial_dig true c (t ++ fr ++ e) hd; simpa [signText] using this
    · cases h

theorem json_textual : ∀ f : Nat, (∀ d s j r, jsonValue f d s = some (j, r) → TextTree j ∧ jdepth j ≤ d) ∧
    (∀ d s l r, jsonElems f d s = some (l, r) → TextTrees l ∧ jdepths l ≤ d)
  | 0 => ⟨fun d s j r h => by simp [jsonValue] at h, fun d s l r h => by simp [jsonElems] at h⟩
  | f + 1 => by
    obtain ⟨ih1, ih2⟩ := json_textual f
    constructor
    · intro d s j r h
      cases s with
      | nil => simp [jsonValue] at h
      | cons c s =>
        rw [jsonValue] at h
        split at h
        · split at h
          · rename_i x q hx; cases h
            exact ⟨jsonStr_text _ _ _ _ hx, Nat.zero_le _⟩
          · cases h
        · split at h
          · split at h
            · cases h
            · split at h
              · cases h; exact ⟨trivial, by simp [jdepth, jdepths]; omega⟩
              · split at h
                · rename_i l q hl; cases h
                  obtain ⟨h1, h2⟩ := ih2 _ _ _ _ hl
                  exact ⟨h1, by simp only [jdepth]; omega⟩
                · cases h
          · split at h
            · split at h
              · cases h
              · split at h
                · cases h; exact ⟨trivial, Nat.zero_le _⟩
                · split at h
                  · cases h; exact ⟨trivial, Nat.zero_le _⟩
                  · cases h
            · split at h
              · cases h; exact ⟨trivial, Nat.zero_le _⟩
              · split at h
                · cases h; exact ⟨trivial, Nat.zero_le _⟩
                · split at h
                  · cases h; exact ⟨trivial, Nat.zero_le _⟩
                  · split at h
                    · rename_i hx; cases h; exact ⟨jsonNum_finite hx, Nat.zero_le _⟩
                    · cases h
    · intro d s l r h
      rw [jsonElems] at h
      split at h
      · cases h
      · rename_i v q hv
        obtain ⟨h1, h2⟩ := ih1 _ _ _ _ hv
        split at h
        · split at h
          · rename_i hvs; cases h
            obtain ⟨h3, h4⟩ := ih2 _ _ _ _ hvs
            exact ⟨⟨h1, h3⟩, by simp only [jdepths]; omega⟩
          · cases h
        · cases h; exact ⟨⟨h1, trivial⟩, by simp only [jdepths]; omega⟩
        · cases h

/-- What the stream reader accepts can be written and read again. -/
theorem parseJsonStream_textual : ∀ (f : Nat) (s : Bytes) (p : List Value), parseJsonStream f s = .ok p →
    ∀ v ∈ p, convertValue (valueToJson v) = .ok v ∧ TextValue v ∧ nesting v ≤ maxNesting
  | 0, s, p, h => by simp [parseJsonStream] at h
  | f + 1, s, p, h => by
    rw [parseJsonStream] at h
    split at h
    · cases h; intro v hv; simp at hv
    · split at h
      · cases h
      · rename_i j r hj
        split at h
        · cases h
        · rename_i v hv
          split at h
          · rename_i vs hvs
            cases h
            intro w hw
            rcases List.mem_cons.1 hw with rfl | hw
            · obtain ⟨h1, h2⟩ := (json_textual _).1 _ _ _ _ hj
              have hback : valueToJson w = j := by
                cases j with
                | arr l => exact (json_forth (.arr l) w hv).1
                | str s => cases hv; rfl
                | num x => cases hv; rfl
                | _ => cases hv
              rw [← hback] at h1 h2 hv
              exact ⟨hv, textTree_value w h1, by rw [← jdepth_value]; exact h2⟩
            · exact parseJsonStream_textual f r vs hvs w hw
          · cases h

end Texted
