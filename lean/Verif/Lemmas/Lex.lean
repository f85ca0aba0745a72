import Verif.Spec.Syntax
import Verif.Lemmas.Utf8
import Verif.Lemmas.Number
/- The lexer of the script parser. -/
namespace Texted
open Spec

/-! ### runes and bytes -/

theorem encodeAll_nil : encodeAll [] = [] := rfl
theorem encodeAll_cons (c : Char) (cs : List Char) : encodeAll (c :: cs) = encodeRune c ++ encodeAll cs := by simp [encodeAll]
theorem encodeAll_append (a b : List Char) : encodeAll (a ++ b) = encodeAll a ++ encodeAll b := by simp [encodeAll]

theorem encodeRune_ne_nil (c : Char) : encodeRune c ≠ [] := by
  intro h; have := encodeRune_length c; rw [h] at this; simp at this

theorem encodeAll_eq_nil {cs : List Char} : encodeAll cs = [] ↔ cs = [] := by
  cases cs with
  | nil => simp [encodeAll_nil]
  | cons c cs => simp [encodeAll_cons, encodeRune_ne_nil]

theorem encodeAll_inj {a b : List Char} (h : encodeAll a = encodeAll b) : a = b := by
  have := congrArg decodeAll h
  rwa [decodeAll_encodeAll, decodeAll_encodeAll] at this

theorem chunksAux_encodeAll (cs : List Char) : ∀ f, (encodeAll cs).length ≤ f →
    chunksAux f (encodeAll cs) = cs.map fun c => (c, encodeRune c) := by
  induction cs with
  | nil => intro f _; cases f <;> simp [encodeAll, chunksAux]
  | cons c cs ih =>
    intro f hf
    have hl := encodeRune_length c
    rw [encodeAll_cons] at hf ⊢
    simp only [List.length_append] at hf
    cases f with
    | zero => omega
    | succ f =>
      have hne : encodeRune c ++ encodeAll cs ≠ [] := by simp [encodeRune_ne_nil]
      have : chunksAux (f + 1) (encodeRune c ++ encodeAll cs) =
          ((decodeRune (encodeRune c ++ encodeAll cs)).1, (encodeRune c ++ encodeAll cs).take (decodeRune (encodeRune c ++ encodeAll cs)).2) ::
            chunksAux f ((encodeRune c ++ encodeAll cs).drop (decodeRune (encodeRune c ++ encodeAll cs)).2) := by
        cases hs : encodeRune c ++ encodeAll cs with
        | nil => exact absurd hs hne
        | cons x xs => rfl
      rw [this, decode_encode]
      simp only [List.drop_left, List.take_left]
      rw [ih f (by omega)]; rfl

theorem chunks_encodeAll (cs : List Char) : chunks (encodeAll cs) = cs.map fun c => (c, encodeRune c) :=
  chunksAux_encodeAll cs _ (Nat.le_refl _)

theorem chunks_flat (cs : List Char) : (cs.map fun c => (c, encodeRune c)).flatMap (·.2) = encodeAll cs := by
  induction cs with
  | nil => rfl
  | cons c cs ih => simp only [List.map_cons, List.flatMap_cons, ih, encodeAll_cons]

theorem dropWhile_map {α β : Type} (f : α → β) (p : β → Bool) (l : List α) :
    (l.map f).dropWhile p = (l.dropWhile fun x => p (f x)).map f := by
  induction l with
  | nil => rfl
  | cons x l ih =>
    simp only [List.map_cons, List.dropWhile_cons]
    split
    · exact ih
    · rfl

/-- `strings.TrimSpace` on runes. -/
def trimChars (cs : List Char) : List Char := ((cs.dropWhile isSpace).reverse.dropWhile isSpace).reverse

theorem trimLeft_encodeAll (cs : List Char) : trimLeft (encodeAll cs) = encodeAll (cs.dropWhile isSpace) := by
  rw [trimLeft, chunks_encodeAll, dropWhile_map, chunks_flat]

theorem trimSpace_encodeAll (cs : List Char) : trimSpace (encodeAll cs) = encodeAll (trimChars cs) := by
  rw [trimSpace, chunks_encodeAll, dropWhile_map, ← List.map_reverse, dropWhile_map, ← List.map_reverse, chunks_flat]
  rfl

/-- Text that neither starts nor ends with white space. -/
def Tight (cs : List Char) : Prop := (∀ c ∈ cs.head?, isSpace c = false) ∧ (∀ c ∈ cs.getLast?, isSpace c = false)

theorem dropWhile_tight (cs : List Char) (h : ∀ c ∈ cs.head?, isSpace c = false) : cs.dropWhile isSpace = cs := by
  cases cs with
  | nil => rfl
  | cons c cs =>
    have : isSpace c = false := h c (by simp)
    simp [this]

theorem trimChars_tight (cs : List Char) (h : Tight cs) : trimChars cs = cs := by
  rw [trimChars, dropWhile_tight cs h.1, dropWhile_tight, List.reverse_reverse]
  intro c hc
  rw [List.head?_reverse] at hc
  exact h.2 c hc

/-- A rune's encoding contains an ASCII byte only if it is that rune. -/
theorem mem_encodeRune {c : Char} {x : UInt8} (h : x ∈ encodeRune c) (hx : x.toNat < 128) : c.toNat = x.toNat := by
  have hr := char_range c
  unfold encodeRune at h
  simp only at h
  split at h
  · rename_i hc
    simp only [List.mem_singleton] at h
    subst h
    simp [UInt8.toNat_ofNat']; omega
  · exfalso
    have key : ∀ n, 128 ≤ n → n < 256 → ¬ (UInt8.ofNat n).toNat < 128 := by
      intro n h1 h2; simp [UInt8.toNat_ofNat']; omega
    split at h
    · simp only [List.mem_cons, List.not_mem_nil, or_false] at h
      rcases h with rfl | rfl <;> exact key _ (by omega) (by omega) hx
    · split at h
      · simp only [List.mem_cons, List.not_mem_nil, or_false] at h
        rcases h with rfl | rfl | rfl <;> exact key _ (by omega) (by omega) hx
      · simp only [List.mem_cons, List.not_mem_nil, or_false] at h
        rcases h with rfl | rfl | rfl | rfl <;> exact key _ (by omega) (by omega) hx

theorem mem_encodeAll {cs : List Char} {x : UInt8} (h : x ∈ encodeAll cs) (hx : x.toNat < 128) :
    ∃ c ∈ cs, c.toNat = x.toNat := by
  rw [encodeAll, List.mem_flatMap] at h
  obtain ⟨c, hc, hm⟩ := h
  exact ⟨c, hc, mem_encodeRune hm hx⟩

theorem char_eq_of_toNat {c d : Char} (h : c.toNat = d.toNat) : c = d := by
  have := congrArg Char.ofNat h
  rwa [Char.ofNat_toNat, Char.ofNat_toNat] at this

/-! ### the lexer on string bodies -/

theorem tokenStep_body {s : List Char} (h : StrBody s) : ∀ parts cur,
    s.foldl tokenStep { parts := parts, current := cur, inQuotes := true } =
      { parts := parts, current := cur ++ s, inQuotes := true } := by
  induction h with
  | nil => intro p c; simp
  | char c r h1 h2 _ ih =>
    intro p cur
    have : tokenStep { parts := p, current := cur, inQuotes := true } c = { parts := p, current := cur ++ [c], inQuotes := true } := by
      simp [tokenStep, h1, h2, Lex.write]
    rw [List.foldl_cons, this, ih]; simp
  | esc c r _ ih =>
    intro p cur
    have : tokenStep (tokenStep { parts := p, current := cur, inQuotes := true } '\\') c =
        { parts := p, current := cur ++ ['\\', c], inQuotes := true } := by
      simp [tokenStep, Lex.write]
    rw [List.foldl_cons, List.foldl_cons, this, ih]; simp

theorem splitStep_body {s : List Char} (h : StrBody s) : ∀ parts cur,
    s.foldl splitStep { parts := parts, current := cur, inQuotes := true } =
      { parts := parts, current := cur ++ s, inQuotes := true } := by
  induction h with
  | nil => intro p c; simp
  | char c r h1 h2 _ ih =>
    intro p cur
    have : splitStep { parts := p, current := cur, inQuotes := true } c = { parts := p, current := cur ++ [c], inQuotes := true } := by
      simp [splitStep, h1, h2, Lex.write]
    rw [List.foldl_cons, this, ih]; simp
  | esc c r _ ih =>
    intro p cur
    have : splitStep (splitStep { parts := p, current := cur, inQuotes := true } '\\') c =
        { parts := p, current := cur ++ ['\\', c], inQuotes := true } := by
      simp [splitStep, Lex.write]
    rw [List.foldl_cons, List.foldl_cons, this, ih]; simp

/-- A complete literal is copied to the current token. -/
theorem tokenStep_lit {s : List Char} (h : StrBody s) (parts : List (List Char)) (cur : List Char) :
    ('"' :: (s ++ ['"'])).foldl tokenStep { parts := parts, current := cur } =
      { parts := parts, current := cur ++ '"' :: (s ++ ['"']) } := by
  have h1 : tokenStep { parts := parts, current := cur } '"' = { parts := parts, current := cur ++ ['"'], inQuotes := true } := by
    simp [tokenStep, Lex.write]
  rw [List.foldl_cons, h1, List.foldl_append, tokenStep_body h]
  simp [tokenStep, Lex.write]

theorem splitStep_lit {s : List Char} (h : StrBody s) (parts : List (List Char)) (cur : List Char) :
    ('"' :: (s ++ ['"'])).foldl splitStep { parts := parts, current := cur } =
      { parts := parts, current := cur ++ '"' :: (s ++ ['"']) } := by
  have h1 : splitStep { parts := parts, current := cur } '"' = { parts := parts, current := cur ++ ['"'], inQuotes := true } := by
    simp [splitStep, Lex.write]
  rw [List.foldl_cons, h1, List.foldl_append, splitStep_body h]
  simp [splitStep, Lex.write]

theorem splitStep_plain (parts : List (List Char)) (cur : List Char) (c : Char) (h1 : c ≠ '"') (h2 : c ≠ ';') :
    splitStep { parts := parts, current := cur } c = { parts := parts, current := cur ++ [c] } := by
  unfold splitStep
  by_cases hb : c = '\\' <;> simp [hb, h1, h2, Lex.write]

/-- One command goes to one part. -/
theorem splitStep_one {cs : List Char} (h : OneCommand cs) : ∀ parts cur,
    cs.foldl splitStep { parts := parts, current := cur } = { parts := parts, current := cur ++ cs } := by
  induction h with
  | nil => intro p c; simp
  | char c r h1 h2 _ ih =>
    intro p cur
    rw [List.foldl_cons, splitStep_plain p cur c h1 h2, ih]; simp
  | lit s r hs _ ih =>
    intro p cur
    have : '"' :: (s ++ '"' :: r) = ('"' :: (s ++ ['"'])) ++ r := by simp
    rw [this, List.foldl_append, splitStep_lit hs, ih]; simp

theorem Spec.OneCommand.append {a b : List Char} (ha : OneCommand a) (hb : OneCommand b) : OneCommand (a ++ b) := by
  induction ha with
  | nil => exact hb
  | char c r h1 h2 _ ih => exact .char c _ h1 h2 ih
  | lit s r hs _ ih =>
    have : '"' :: (s ++ '"' :: r) ++ b = '"' :: (s ++ '"' :: (r ++ b)) := by simp
    rw [this]; exact .lit s _ hs ih

theorem Spec.OneCommand.of_names {cs : List Char} (h : ∀ c ∈ cs, c ≠ '"' ∧ c ≠ ';') : OneCommand cs := by
  induction cs with
  | nil => exact .nil
  | cons c cs ih =>
    have := h c (by simp)
    exact .char c cs this.1 this.2 (ih fun d hd => h d (by simp [hd]))

/-! ### quoted strings -/

theorem Spec.StrBody.append {a b : List Char} (ha : StrBody a) (hb : StrBody b) : StrBody (a ++ b) := by
  induction ha with
  | nil => exact hb
  | char c r h1 h2 _ ih => exact .char c _ h1 h2 ih
  | esc c r _ ih => exact .esc c _ ih

/-- Visible ASCII text other than quotes and backslashes. -/
theorem Spec.StrBody.of_chars {cs : List Char} (h : ∀ c ∈ cs, c ≠ '"' ∧ c ≠ '\\') : StrBody cs := by
  induction cs with
  | nil => exact .nil
  | cons c cs ih =>
    have := h c (by simp)
    exact .char c cs this.1 this.2 (ih fun d hd => h d (by simp [hd]))

end Texted
