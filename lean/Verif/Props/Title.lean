import Verif.Model.Title
import Verif.Props.DocText
import Verif.Lemmas.Utf8
import Verif.Props.Ascii
/- C74: the headings of `texted doc --verbose`. -/
namespace Texted
open Spec

theorem separator_ascii (x : TitleExt) : ∀ n : Fin 128, titleSeparator x (Char.ofNat n) =
    !((97 ≤ n.val && n.val ≤ 122) || (65 ≤ n.val && n.val ≤ 90) || (48 ≤ n.val && n.val ≤ 57) || n.val = 95) := by
  intro n
  have hn : (Char.ofNat n.val).toNat = n.val := toNat_ofNat_valid _ (by omega)
  rw [titleSeparator, if_pos (by rw [hn]; omega)]
  revert n
  decide

theorem title_ascii (x : TitleExt) (n : Nat) (h : n < 128) : titleRune x (Char.ofNat n) = Char.ofNat (if 97 ≤ n ∧ n ≤ 122 then n - 32 else n) := by
  have hn : (Char.ofNat n).toNat = n := toNat_ofNat_valid _ (by omega)
  rw [titleRune, if_pos (by rw [hn]; omega), hn]
  split <;> rfl

/-- `titleLoop` on ASCII bytes. -/
def titleBytes (start : Bool) : Bytes → Bytes
  | [] => []
  | b :: r => (if start && 97 ≤ b && b ≤ 122 then b - 32 else b) ::
      titleBytes (!((97 ≤ b && b ≤ 122) || (65 ≤ b && b ≤ 90) || (48 ≤ b && b ≤ 57) || b = 95)) r

theorem titleLoop_ascii (x : TitleExt) : ∀ (s : Bytes) (prev : Char), Ascii s →
    encodeAll (titleLoop x prev (s.map fun b => Char.ofNat b.toNat)) = titleBytes (titleSeparator x prev) s
  | [], _, _ => rfl
  | b :: r, prev, h => by
    have hb : b.toNat < 128 := h b List.mem_cons_self
    have hr : Ascii r := fun c hc => h c (List.mem_cons_of_mem _ hc)
    have hs := separator_ascii x ⟨b.toNat, hb⟩
    simp only at hs
    rw [List.map_cons, titleLoop, titleBytes, title_ascii x _ hb]
    show encodeRune _ ++ encodeAll _ = _
    rw [titleLoop_ascii x r _ hr, hs]
    have e1 : ∀ k : UInt8, decide (k ≤ b) = decide (k.toNat ≤ b.toNat) := fun k => rfl
    have e2 : ∀ k : UInt8, decide (b ≤ k) = decide (b.toNat ≤ k.toNat) := fun k => rfl
    have e3 : decide (b = 95) = decide (b.toNat = 95) := by
      rw [decide_eq_decide]; exact ⟨fun h => by rw [h]; rfl, fun h => UInt8.toNat_inj.1 h⟩
    simp only [e1, e2, e3]
    have enc : encodeRune (if titleSeparator x prev = true then Char.ofNat (if 97 ≤ b.toNat ∧ b.toNat ≤ 122 then b.toNat - 32 else b.toNat) else Char.ofNat b.toNat)
        = [if (titleSeparator x prev && decide ((97 : UInt8).toNat ≤ b.toNat) && decide (b.toNat ≤ (122 : UInt8).toNat)) = true then b - 32 else b] := by
      have h97 : (97 : UInt8).toNat = 97 := rfl
      have h122 : (122 : UInt8).toNat = 122 := rfl
      rw [h97, h122]
      have hof : UInt8.ofNat b.toNat = b := by simp
      cases titleSeparator x prev with
      | false => simp [encodeRune_ascii _ hb, hof]
      | true =>
        by_cases hc : 97 ≤ b.toNat ∧ b.toNat ≤ 122
        · simp only [hc, and_self, if_true, decide_true, Bool.and_self]
          rw [encodeRune_ascii _ (by omega)]
          congr 1
          apply UInt8.toNat_inj.1
          rw [UInt8.toNat_sub_of_le _ _ (by show (32 : UInt8).toNat ≤ b.toNat; have : (32 : UInt8).toNat = 32 := rfl; omega)]
          have : (32 : UInt8).toNat = 32 := rfl
          rw [this]; simp; omega
        · rw [if_pos rfl, if_neg hc, encodeRune_ascii _ hb, hof]
          rw [if_neg (by simpa using hc)]
    rw [enc]
    rfl

theorem titleBytes_spec : ∀ (s : Bytes) (start : Bool), (titleBytes start s).length = s.length ∧ ∀ (i : Nat) (b : UInt8), s[i]? = some b →
    ((97 ≤ b ∧ b ≤ 122 ∧ (i = 0 → start = true) ∧ ∀ j p, i = j + 1 → s[j]? = some p → ¬ HeadingByte p) ∧ (titleBytes start s)[i]? = some (b - 32)) ∨
    (¬ (97 ≤ b ∧ b ≤ 122 ∧ (i = 0 → start = true) ∧ ∀ j p, i = j + 1 → s[j]? = some p → ¬ HeadingByte p) ∧ (titleBytes start s)[i]? = some b)
  | [], _ => ⟨rfl, fun i b h => by simp at h⟩
  | a :: r, start => by
    have ih := titleBytes_spec r (!((97 ≤ a && a ≤ 122) || (65 ≤ a && a ≤ 90) || (48 ≤ a && a ≤ 57) || a = 95))
    have hw : (!((97 ≤ a && a ≤ 122) || (65 ≤ a && a ≤ 90) || (48 ≤ a && a ≤ 57) || a = 95)) = true ↔ ¬ HeadingByte a := by
      simp only [HeadingByte, Bool.not_eq_true', Bool.or_eq_false_iff, Bool.and_eq_false_iff, decide_eq_false_iff_not]; constructor
      · rintro ⟨⟨⟨a1, a2⟩, a3⟩, a4⟩ (h | h | h | h)
        · exact a1.elim (· h.1) (· h.2)
        · exact a2.elim (· h.1) (· h.2)
        · exact a3.elim (· h.1) (· h.2)
        · exact a4 h
      · intro h
        have k : ∀ {p q : Prop} [Decidable p] [Decidable q], ¬ (p ∧ q) → ¬ p ∨ ¬ q := fun h => Decidable.not_and_iff_not_or_not.1 h
        exact ⟨⟨⟨k fun h' => h (.inl h'), k fun h' => h (.inr (.inl h'))⟩, k fun h' => h (.inr (.inr (.inl h')))⟩, fun h' => h (.inr (.inr (.inr h')))⟩
    refine ⟨by rw [titleBytes, List.length_cons, ih.1, List.length_cons], fun i b h => ?_⟩
    cases i with
    | zero =>
      simp only [List.getElem?_cons_zero, Option.some.injEq] at h
      subst h
      rw [titleBytes, List.getElem?_cons_zero]
      by_cases hc : 97 ≤ a ∧ a ≤ 122 ∧ start = true
      · exact .inl ⟨⟨hc.1, hc.2.1, fun _ => hc.2.2, fun j p hj => nomatch hj⟩, by simp [hc]⟩
      · refine .inr ⟨fun h => hc ⟨h.1, h.2.1, h.2.2.1 rfl⟩, ?_⟩
        rw [if_neg]
        simp only [Bool.and_eq_true, decide_eq_true_eq]
        exact fun h => hc ⟨h.1.2, h.2, h.1.1⟩
    | succ i =>
      rw [List.getElem?_cons_succ] at h
      rw [titleBytes, List.getElem?_cons_succ]
      have key : (97 ≤ b ∧ b ≤ 122 ∧ (i + 1 = 0 → start = true) ∧ ∀ j p, i + 1 = j + 1 → (a :: r)[j]? = some p → ¬ HeadingByte p) ↔
          (97 ≤ b ∧ b ≤ 122 ∧ (i = 0 → (!((97 ≤ a && a ≤ 122) || (65 ≤ a && a ≤ 90) || (48 ≤ a && a ≤ 57) || a = 95)) = true) ∧
            ∀ j p, i = j + 1 → r[j]? = some p → ¬ HeadingByte p) := by
        rw [hw]
        constructor
        · rintro ⟨h1, h2, _, h4⟩
          refine ⟨h1, h2, fun hi => h4 0 a (by rw [hi]) rfl, fun j p hj hp => ?_⟩
          exact h4 (j + 1) p (by rw [hj]) (by simpa using hp)
        · rintro ⟨h1, h2, h3, h4⟩
          refine ⟨h1, h2, fun h => absurd h (Nat.succ_ne_zero _), fun j p hj hp => ?_⟩
          cases j with
          | zero => simp only [List.getElem?_cons_zero, Option.some.injEq] at hp; exact hp ▸ h3 (by omega)
          | succ j => exact h4 j p (by omega) (by simpa using hp)
      rw [key]
      exact ih.2 i b h

/-- **C74.** The heading of a category of ASCII characters, whatever the tables for other characters are. -/
theorem C74_heading (x : TitleExt) (s : Bytes) (h : AsciiText s) : Heading s (strTitle x s) := by
  have h' : Ascii s := h
  rw [strTitle, decodeAll_ascii s h', titleLoop_ascii x s ' ' h', show titleSeparator x ' ' = true by rfl]
  obtain ⟨h1, h2⟩ := titleBytes_spec s true
  refine ⟨h1, fun i b hb => ?_⟩
  simpa using h2 i b hb

theorem heading_unique {s t t' : Bytes} (h : Heading s t) (h' : Heading s t') : t = t' := by
  apply List.ext_getElem?
  intro i
  cases hs : s[i]? with
  | none =>
    have hl := List.getElem?_eq_none_iff.1 hs
    rw [List.getElem?_eq_none_iff.2 (by rw [h.1]; exact hl), List.getElem?_eq_none_iff.2 (by rw [h'.1]; exact hl)]
  | some b =>
    rcases h.2 i b hs with ⟨a, e⟩ | ⟨a, e⟩ <;> rcases h'.2 i b hs with ⟨a', e'⟩ | ⟨a', e'⟩
    · rw [e, e']
    · exact absurd a a'
    · exact absurd a' a
    · rw [e, e']

/-- **C74.** `texted doc --verbose`, if the categories are ASCII: the functions with their summaries, one section for each category, headed by the
category with the first letter of each word in upper case. -/
theorem C74_sections (x : TitleExt) (calls : List FunctionDoc) (category : Bytes) (ds : List FunctionDoc) (hl : Listed calls category ds)
    (ha : ∀ d ∈ ds, AsciiText d.category) (out : Except Bytes Bytes) (h : RunDoc (strTitle x) (registryOf calls) [] category true out) (hn : ds ≠ []) :
    ∃ body heading, (∀ d ∈ ds, d.category ≠ [] → Heading d.category (heading d.category)) ∧ heading b! "other" = b! "Other" ∧
      InSections b! "other" heading (fun d => b! "- **" ++ d.name ++ b! "**: " ++ d.summary ++ b! "\n") ds body ∧
      out = .ok ((if category = [] then b! "Available functions (" ++ natDec ds.length ++ b! " total):\n\n"
        else b! "Functions in category '" ++ category ++ b! "':\n\n") ++ body) := by
  obtain ⟨body, h1, h2⟩ := C74_list_verbose (strTitle x) calls category ds hl out h hn
  refine ⟨body, strTitle x, fun d hd _ => C74_heading x _ (ha d hd), ?_, h1, h2⟩
  exact heading_unique (C74_heading x b! "other" (by intro b hb; revert b; decide)) ⟨rfl, by
    intro i b hb
    match i, hb with
    | 0, hb => cases hb; exact .inl ⟨⟨by decide, by decide, fun j p hj => nomatch hj⟩, rfl⟩
    | 1, hb => cases hb; exact .inr ⟨fun h => h.2.2 0 111 rfl rfl (by unfold HeadingByte; decide), rfl⟩
    | 2, hb => cases hb; exact .inr ⟨fun h => h.2.2 1 116 rfl rfl (by unfold HeadingByte; decide), rfl⟩
    | 3, hb => cases hb; exact .inr ⟨fun h => h.2.2 2 104 rfl rfl (by unfold HeadingByte; decide), rfl⟩
    | 4, hb => cases hb; exact .inr ⟨fun h => h.2.2 3 101 rfl rfl (by unfold HeadingByte; decide), rfl⟩
    | n + 5, hb => simp at hb⟩

/-- The categories of the 50 functions are ASCII. -/
theorem C74_categories : ∀ e ∈ docTable, AsciiText e.category ∧ e.category ≠ [] := by
  intro e he
  have : (docTable.all fun e => (e.category.all fun b => b < 128) && e.category ≠ []) = true := by decide +kernel
  have := List.all_eq_true.1 this e he
  simp only [Bool.and_eq_true, List.all_eq_true, decide_eq_true_eq] at this
  exact ⟨fun b hb => this.1 b hb, this.2⟩

example : strTitle ⟨fun _ => true, id⟩ b! "kill-ring x2y" = b! "Kill-Ring X2y" := by decide +kernel

end Texted
