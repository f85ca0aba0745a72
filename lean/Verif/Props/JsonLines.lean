import Verif.Props.ParseCmd
/- C67: the JSON output of `parse` is one line for each command. -/
namespace Texted
open Spec

/-- A byte that is neither a control character nor one of `<`, `>`, `&`. -/
def WebByte (c : UInt8) : Prop := 32 ≤ c.toNat ∧ c ≠ 60 ∧ c ≠ 62 ∧ c ≠ 38

instance (c : UInt8) : Decidable (WebByte c) := inferInstanceAs (Decidable (_ ∧ _))

/-- All bytes of the text are such. -/
def Web (t : Bytes) : Prop := ∀ c ∈ t, WebByte c

theorem Web.append {a b : Bytes} (ha : Web a) (hb : Web b) : Web (a ++ b) :=
  fun c hc => (List.mem_append.mp hc).elim (ha c) (hb c)

theorem Web.dig {a : Bytes} (h : ∀ c ∈ a, IsDig c) : Web a := fun c hc => by
  have := h c hc
  unfold IsDig at this
  refine ⟨by omega, ?_, ?_, ?_⟩ <;> rintro rfl
  · exact absurd this.2 (by decide)
  · exact absurd this.2 (by decide)
  · exact absurd this.1 (by decide)

theorem web_take {a : Bytes} (h : Web a) (n : Nat) : Web (a.take n) := fun c hc => h c (List.take_subset _ _ hc)

theorem web_drop {a : Bytes} (h : Web a) (n : Nat) : Web (a.drop n) := fun c hc => h c (List.drop_subset _ _ hc)

theorem web_zeros (n : Nat) : Web (zeros n) := fun c hc => by
  have := List.eq_of_mem_replicate hc
  subst this
  decide

theorem web_nil : Web [] := fun _ h => nomatch h

theorem web_ite {c : Prop} [Decidable c] {a b : Bytes} (ha : Web a) (hb : Web b) : Web (if c then a else b) := by
  split
  · exact ha
  · exact hb

theorem web_digits (sci neg : Bool) (ds : Bytes) (dp : Int) (h : Web ds) : Web (jsonDigits sci neg ds dp) := by
  unfold jsonDigits
  refine (web_ite (by unfold Web; decide) web_nil).append (web_ite ?_ ?_)
  · unfold jsonE
    exact ((((web_take h _).append (web_ite web_nil (Web.append (by unfold Web; decide) (web_drop h _)))).append
      (by unfold Web; decide)).append (web_ite (by unfold Web; decide) (by unfold Web; decide))).append (.dig (natDec_dig _))
  · unfold fmtF
    exact (web_ite ((web_take h _).append (web_zeros _)) (by unfold Web; decide)).append
      (web_ite ((Web.append (by unfold Web; decide) (web_zeros _)).append (web_drop h _)) web_nil)

theorem web_kDigits (num den k : Nat) (o : Bool) : Web (kDigits num den k o).1 := by
  have key : ∀ (q : Nat) (dp : Int), Web (if q = 10 ^ k then (b! "1", dp + 1) else (natDec q, dp)).1 := by
    intro q dp
    split
    · show Web [49]
      unfold Web; decide
    · exact .dig (natDec_dig _)
  exact key _ _

theorem web_float (x : F64) (t : Bytes) (h : jsonFloat x = some t) : Web t := by
  cases x with
  | nan => cases h
  | inf b => cases h
  | fin neg m e =>
    simp only [jsonFloat] at h
    split at h
    · cases h
      exact web_ite (by unfold Web; decide) (by unfold Web; decide)
    · cases h
      generalize hf : List.find? _ _ = r
      cases r with
      | none =>
        show Web (exactText neg m e)
        unfold exactText
        exact (web_ite (by unfold Web; decide) web_nil).append (web_ite (.dig (natDec_dig _))
          (((Web.dig (natDec_dig _)).append (by unfold Web; decide)).append (.dig (natDec_dig _))))
      | some r =>
        obtain ⟨k, _, h2⟩ := List.mem_flatMap.mp (List.mem_of_find?_eq_some hf)
        obtain ⟨o, _, rfl⟩ := List.mem_map.mp h2
        exact web_digits _ _ _ _ (web_kDigits _ _ _ _)

theorem web_hex (n : Nat) (h : n < 16) : WebByte (hexDigit n) := by
  have : ∀ n < 16, WebByte (hexDigit n) := by decide
  exact this n h

theorem web_encodeRune (c : Char) (h : 32 ≤ c.toNat ∧ c.toNat ≠ 60 ∧ c.toNat ≠ 62 ∧ c.toNat ≠ 38) : Web (encodeRune c) := by
  by_cases hc : c.toNat < 128
  · have : encodeRune c = [UInt8.ofNat c.toNat] := by simp [encodeRune, hc]
    rw [this]
    intro x hx
    rw [List.mem_singleton.mp hx]
    have e : (UInt8.ofNat c.toNat).toNat = c.toNat := by simp [UInt8.toNat_ofNat']; omega
    refine ⟨by omega, ?_, ?_, ?_⟩ <;> (intro hh; rw [hh] at e; simp at e; omega)
  · intro x hx
    have hx : 128 ≤ x.toNat := by
      have hr := char_range c
      unfold encodeRune at hx
      simp only [if_neg hc] at hx
      split at hx
      · simp at hx; rcases hx with rfl | rfl <;> simp [UInt8.toNat_ofNat'] <;> omega
      · split at hx
        · simp at hx; rcases hx with rfl | rfl | rfl <;> simp [UInt8.toNat_ofNat'] <;> omega
        · simp at hx; rcases hx with rfl | rfl | rfl | rfl <;> simp [UInt8.toNat_ofNat'] <;> omega
    refine ⟨by omega, ?_, ?_, ?_⟩ <;> (rintro rfl; exact absurd hx (by decide))

theorem web_escape (c : Char) : Web (jsonEscape c) := by
  unfold jsonEscape
  by_cases n1 : c.toNat = 34 ∨ c.toNat = 92
  · simp only [if_pos n1]
    rcases n1 with h | h <;> rw [h] <;> unfold Web <;> decide
  · simp only [if_neg n1]
    refine web_ite (by unfold Web; decide) (web_ite (by unfold Web; decide) (web_ite (by unfold Web; decide) (web_ite (by unfold Web; decide)
      (web_ite (by unfold Web; decide) ?_))))
    by_cases n2 : c.toNat < 32 ∨ c.toNat = 60 ∨ c.toNat = 62 ∨ c.toNat = 38
    · rw [if_pos n2]
      refine Web.append (by unfold Web; decide) ?_
      intro x hx
      rcases List.mem_cons.mp hx with rfl | hx
      · exact web_hex _ (by omega)
      · rw [List.mem_singleton.mp hx]; exact web_hex _ (by omega)
    · rw [if_neg n2]
      refine web_ite (Web.append (by unfold Web; decide) ?_) (web_encodeRune c (by omega))
      intro x hx
      rw [List.mem_singleton.mp hx]; exact web_hex _ (by omega)

theorem web_body (f : Nat) : ∀ s, Web (jsonStrBody f s) := by
  induction f with
  | zero => intro s; exact web_nil
  | succ f ih =>
    intro s
    cases s with
    | nil => exact web_nil
    | cons x s =>
      simp only [jsonStrBody]
      exact web_ite (Web.append (by unfold Web; decide) (ih _)) ((web_escape _).append (ih _))

mutual
theorem web_print : (j : Json) → ∀ t, jsonPrint j = some t → Web t
  | .null, t, h => by cases h; unfold Web; decide
  | .bool b, t, h => by cases h; cases b <;> (unfold Web; decide)
  | .num x, t, h => web_float x t h
  | .str s, t, h => by
    cases h
    exact (Web.append (by unfold Web; decide) (web_body _ _)).append (by unfold Web; decide)
  | .arr l, t, h => by
    rw [jsonPrint] at h
    cases hl : jsonPrints l with
    | none => rw [hl] at h; cases h
    | some u =>
      rw [hl] at h; cases h
      exact (Web.append (by unfold Web; decide) (web_prints l u hl)).append (by unfold Web; decide)
  | .obj _, t, h => by cases h
theorem web_prints : (l : List Json) → ∀ t, jsonPrints l = some t → Web t
  | [], t, h => by cases h; exact web_nil
  | [j], t, h => web_print j t h
  | j :: k :: r, t, h => by
    rw [jsonPrints] at h
    cases h1 : jsonPrint j with
    | none => rw [h1] at h; cases h
    | some a =>
      cases h2 : jsonPrints (k :: r) with
      | none => rw [h1, h2] at h; cases h
      | some b =>
        rw [h1, h2] at h; cases h
        exact ((web_print j a h1).append (by unfold Web; decide)).append (web_prints (k :: r) b h2)
end

/-- The JSON output is a sequence of lines, one for each command written. No line has a control character in it (so none is broken in two),
nor one of `<`, `>`, `&`, which encoding/json escapes so that the text can stand in a web page. -/
theorem C67_json_lines (p : List Value) : ∃ lines : List Bytes, (writeJson p).out = lines.flatMap (· ++ b! "\n") ∧
    (∀ l ∈ lines, ∀ c ∈ l, 32 ≤ c.toNat ∧ c ≠ 60 ∧ c ≠ 62 ∧ c ≠ 38) ∧ ((writeJson p).err = none → lines.length = p.length) := by
  induction p with
  | nil => exact ⟨[], rfl, (fun _ h => nomatch h), fun _ => rfl⟩
  | cons v p ih =>
    obtain ⟨lines, h1, h2, h3⟩ := ih
    rw [writeJson]
    cases hv : jsonPrint (valueToJson v) with
    | none =>
      have : writeJsonValue v = none := by rw [writeJsonValue, hv]; rfl
      rw [this]
      exact ⟨[], rfl, (fun _ h => nomatch h), fun h => nomatch h⟩
    | some t =>
      have : writeJsonValue v = some (t ++ [nl]) := by rw [writeJsonValue, hv]; rfl
      rw [this]
      refine ⟨t :: lines, ?_, ?_, ?_⟩
      · simp only [List.flatMap_cons, h1]; rfl
      · intro l hl
        rcases List.mem_cons.mp hl with rfl | hl
        · exact web_print _ _ hv
        · exact h2 l hl
      · intro h
        rw [List.length_cons, List.length_cons, h3 h]

/-- A command with a line break and markup in a string: one line. -/
example : (writeJson [.list [.sym (b! "insert"), .str (b! "<a>\n&")], .list [.sym (b! "point")]]).out =
    b! "[\"insert\",\"\\u003ca\\u003e\\n\\u0026\"]\n[\"point\"]\n" := by decide +kernel

end Texted
