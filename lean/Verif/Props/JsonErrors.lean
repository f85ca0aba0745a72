import Verif.Spec.JsonErrors
import Verif.Props.JsonText
/- C43, C67: what the errors of JSON scripts say. -/
namespace Texted
open Spec

theorem kind_iff (j : Json) (k : Bytes) : Kind j k ↔ (∀ s, j ≠ .str s) ∧ k = j.typeName := by
  constructor
  · intro h; cases h <;> exact ⟨by simp, rfl⟩
  · rintro ⟨h, rfl⟩
    cases j with
    | str s => exact absurd rfl (h s)
    | null => exact .null
    | bool => exact .bool
    | num => exact .num
    | arr => exact .arr
    | obj => exact .obj

theorem argTrees_validate (l : List Json) (i : Nat) : validateItems i l = none ↔ ArgTrees l := by
  rw [validate_items l i 1, argTrees_items l 1]

theorem argTrees_append {a b : List Json} (h : ArgTrees (a ++ b)) : ArgTrees a := by
  induction a with
  | nil => exact .nil
  | cons x a ih =>
    cases h with
    | str s _ h => exact .str _ _ (ih h)
    | num s _ h => exact .num _ _ (ih h)
    | cmd j _ hc h => exact .cmd _ _ hc (ih h)

theorem argTrees_cons {j : Json} {l : List Json} (h : validate false j = none) (hl : ArgTrees l) : ArgTrees (j :: l) := by
  rw [← argTrees_validate _ 1] at hl ⊢
  rw [validateItems, h]
  exact ((argTrees_validate _ _).2 ((argTrees_validate _ _).1 hl))

/-- The first wrong item after good ones. -/
theorem validateItems_some (l : List Json) : ∀ (i : Nat) (e : Bytes), validateItems i l = some e ↔
    ∃ good j rest e', l = good ++ j :: rest ∧ ArgTrees good ∧ validate false j = some e' ∧
      e = b! "invalid element at index " ++ natDec (i + good.length) ++ b! ": " ++ e' := by
  induction l with
  | nil => intro i e; simp [validateItems]
  | cons x l ih =>
    intro i e
    rw [validateItems]
    cases hx : validate false x with
    | some e' =>
      dsimp only
      constructor
      · intro h; cases h; exact ⟨[], x, l, e', rfl, .nil, hx, rfl⟩
      · rintro ⟨good, j, rest, e'', h1, h2, h3, h4⟩
        cases good with
        | nil => cases h1; rw [hx] at h3; cases h3; rw [h4]; rfl
        | cons g good =>
          cases h1
          have := (argTrees_validate _ 1).2 h2
          rw [validateItems, hx] at this; cases this
    | none =>
      dsimp only
      rw [ih]
      constructor
      · rintro ⟨good, j, rest, e', h1, h2, h3, h4⟩
        refine ⟨x :: good, j, rest, e', by rw [h1]; rfl, argTrees_cons hx h2, h3, ?_⟩
        rw [h4, List.length_cons, show i + 1 + good.length = i + (good.length + 1) by omega]
      · rintro ⟨good, j, rest, e', h1, h2, h3, h4⟩
        cases good with
        | nil => cases h1; rw [hx] at h3; cases h3
        | cons g good =>
          cases h1
          have h2' : ArgTrees good := by
            cases h2 with
            | str _ _ h => exact h
            | num _ _ h => exact h
            | cmd _ _ _ h => exact h
          refine ⟨good, j, rest, e', rfl, h2', h3, ?_⟩
          rw [h4, List.length_cons, show i + 1 + good.length = i + (good.length + 1) by omega]

theorem validate_wrong (n : Nat) : ∀ (j : Json) (e : Bytes), sizeOf j < n → (validate false j = some e ↔ WrongItem j e) := by
  induction n with
  | zero => intro j e h; omega
  | succ n ih =>
    intro j e hn
    cases j with
    | null => exact ⟨fun h => by cases h; exact .null, fun h => by cases h; rfl⟩
    | bool b => exact ⟨fun h => by cases h; exact .bool, fun h => by cases h; rfl⟩
    | obj f => exact ⟨fun h => by cases h; exact .obj, fun h => by cases h; rfl⟩
    | str s => exact ⟨fun h => (nomatch h), fun h => (nomatch h)⟩
    | num x => exact ⟨fun h => (nomatch h), fun h => (nomatch h)⟩
    | arr l =>
      cases l with
      | nil => exact ⟨fun h => (nomatch h), fun h => (nomatch h)⟩
      | cons x l =>
        by_cases hx : ∃ s, x = .str s
        · obtain ⟨s, rfl⟩ := hx
          rw [validate, validateItems_some]
          constructor
          · rintro ⟨good, j, rest, e', rfl, h2, h3, rfl⟩
            rw [show 1 + good.length = good.length + 1 by omega]
            refine .inside h2 ((ih j e' ?_).1 h3)
            have : j ∈ good ++ j :: rest := by simp
            have := List.sizeOf_lt_of_mem this
            simp only [Json.arr.sizeOf_spec, List.cons.sizeOf_spec] at hn
            omega
          · intro h
            cases h with
            | head hk => exact absurd rfl (((kind_iff _ _).1 hk).1 s)
            | @inside name good j rest e h1 h2 =>
              refine ⟨good, j, rest, e, rfl, h1, (ih j e ?_).2 h2, by rw [show 1 + good.length = good.length + 1 by omega]⟩
              have : j ∈ good ++ j :: rest := by simp
              have := List.sizeOf_lt_of_mem this
              simp only [Json.arr.sizeOf_spec, List.cons.sizeOf_spec] at hn
              omega
        · have hx' : ∀ s, x ≠ .str s := fun s h => hx ⟨s, h⟩
          have hv : validate false (.arr (x :: l)) = some (b! "first element of array must be string, got " ++ x.typeName) := by
            cases x <;> first | rfl | exact absurd rfl (hx' _)
          rw [hv]
          constructor
          · intro h; cases h; exact .head ((kind_iff _ _).2 ⟨hx', rfl⟩)
          · intro h
            cases h with
            | head hk => rw [((kind_iff _ _).1 hk).2]
            | inside => exact absurd rfl (hx' _)

/-- C43. Exactly why a value is not accepted as a command: the message of `ValidateJSONFormat` names the first thing that is wrong with it. -/
theorem C43_reason (j : Json) (e : Bytes) : validateFormat j = some e ↔ WrongCommand j e := by
  have hitem := validate_wrong (sizeOf j + 1) j e (Nat.lt_succ_self _)
  have hno : ∀ j e, WrongCommand j e → (∀ s, j ≠ .str s) → (∀ x, j ≠ .num x) → WrongItem j e := by
    intro j e h h1 h2
    cases h with
    | str => exact absurd rfl (h1 _)
    | num => exact absurd rfl (h2 _)
    | item h => exact h
  cases j with
  | str s =>
    refine ⟨fun h => by cases h; exact .str, fun h => ?_⟩
    cases h with
    | str => rfl
    | item h => cases h
  | num x =>
    refine ⟨fun h => by cases h; exact .num, fun h => ?_⟩
    cases h with
    | num => rfl
    | item h => cases h
  | null => exact ⟨fun h => .item (hitem.1 h), fun h => hitem.2 (hno _ _ h (by simp) (by simp))⟩
  | bool b => exact ⟨fun h => .item (hitem.1 h), fun h => hitem.2 (hno _ _ h (by simp) (by simp))⟩
  | obj f => exact ⟨fun h => .item (hitem.1 h), fun h => hitem.2 (hno _ _ h (by simp) (by simp))⟩
  | arr l =>
    have : validateFormat (.arr l) = validate false (.arr l) := by
      cases l with
      | nil => rfl
      | cons x l => cases x <;> rfl
    rw [this]
    exact ⟨fun h => .item (hitem.1 h), fun h => hitem.2 (hno _ _ h (by simp) (by simp))⟩

theorem convertCommands_error (l : List Json) : ∀ (i : Nat) (e : Bytes), convertCommands i l = .error e ↔
    ∃ good j rest e', l = good ++ j :: rest ∧ (∀ g ∈ good, CommandTree g) ∧ WrongCommand j e' ∧
      e = b! "invalid format at index " ++ natDec (i + good.length) ++ b! ": " ++ e' := by
  induction l with
  | nil => intro i e; simp [convertCommands]
  | cons x l ih =>
    intro i e
    rw [convertCommands]
    cases hx : validateFormat x with
    | some e' =>
      dsimp only
      have hw := (C43_reason x e').1 hx
      constructor
      · intro h; cases h; exact ⟨[], x, l, e', rfl, by simp, hw, rfl⟩
      · rintro ⟨good, j, rest, e'', h1, h2, h3, h4⟩
        cases good with
        | nil =>
          cases h1
          rw [(C43_reason x e'').2 h3] at hx
          cases hx; rw [h4]; rfl
        | cons g good =>
          cases h1
          have := (C43_commandTree _).2 (h2 _ (List.mem_cons_self ..))
          rw [hx] at this; cases this
    | none =>
      obtain ⟨_, v, hv⟩ := (C43_validate x).1 hx
      have hc := (C43_commandTree x).1 hx
      rw [hv]
      dsimp only
      refine Iff.trans (b := convertCommands (i + 1) l = .error e) (by cases convertCommands (i + 1) l <;> simp) ((ih _ _).trans ?_)
      constructor
      · rintro ⟨good, j, rest, e', h1, h2, h3, h4⟩
        refine ⟨x :: good, j, rest, e', by rw [h1]; rfl, ?_, h3, ?_⟩
        · intro g hg
          rcases List.mem_cons.1 hg with rfl | hg
          · exact hc
          · exact h2 g hg
        · rw [h4, List.length_cons, show i + 1 + good.length = i + (good.length + 1) by omega]
      · rintro ⟨good, j, rest, e', h1, h2, h3, h4⟩
        cases good with
        | nil => cases h1; rw [(C43_reason x e').2 h3] at hx; cases hx
        | cons g good =>
          cases h1
          refine ⟨good, j, rest, e', rfl, fun g hg => h2 g (List.mem_cons_of_mem _ hg), h3, ?_⟩
          rw [h4, List.length_cons, show i + 1 + good.length = i + (good.length + 1) by omega]

/-- C43. Exactly why a JSON script is refused, for every byte string: with `C43_text` this says what becomes of every one. -/
theorem C43_refused (s e : Bytes) : parseJsonString s = .error e ↔ WrongScript s e := by
  cases h : jsonText s with
  | none =>
    rw [show parseJsonString s = .error (b! "JSON unmarshal error") by unfold parseJsonString; rw [h]]
    have hno : ∀ j, ¬ JsonText s j := fun j hj => by rw [(jsonText_iff s j).2 hj] at h; cases h
    constructor
    · intro h; cases h; exact .text hno
    · intro h
      cases h with
      | text => rfl
      | array hj => exact absurd hj (hno _)
      | command hj => exact absurd hj (hno _)
  | some j =>
    have hj : JsonText s j := (jsonText_iff s j).1 h
    by_cases harr : ∃ l, j = .arr l
    · obtain ⟨l, rfl⟩ := harr
      rw [show parseJsonString s = convertCommands 0 l by unfold parseJsonString; rw [h], convertCommands_error]
      constructor
      · rintro ⟨good, x, rest, e', rfl, h2, h3, rfl⟩
        rw [Nat.zero_add]
        exact .command hj h2 h3
      · intro h'
        cases h' with
        | text hno => exact absurd hj (hno _)
        | array hj' _ hn => exact absurd (C43_unique s _ _ hj' hj) (hn l)
        | command hj' h2 h3 =>
          cases C43_unique s _ _ hj' hj
          exact ⟨_, _, _, _, rfl, h2, h3, by rw [Nat.zero_add]⟩
    · have hn : ∀ l, j ≠ .arr l := fun l hl => harr ⟨l, hl⟩
      by_cases hnull : j = .null
      · subst hnull
        rw [show parseJsonString s = .ok [] by unfold parseJsonString; rw [h]]
        constructor
        · intro h; cases h
        · intro h'
          cases h' with
          | text hno => exact absurd hj (hno _)
          | array hj' hn' => exact absurd (C43_unique s _ _ hj' hj) hn'
          | command hj' => cases C43_unique s _ _ hj' hj
      · have he : parseJsonString s = .error (b! "JSON unmarshal error") := by
          unfold parseJsonString
          rw [h]
          cases j <;> first | rfl | exact absurd rfl hnull | exact absurd rfl (hn _)
        rw [he]
        constructor
        · intro h; cases h; exact .array hj hnull hn
        · intro h'
          cases h' with
          | text => rfl
          | array => rfl
          | command hj' => exact absurd (C43_unique s _ _ hj hj') (hn _)

example : parseJsonString b! "[[\"point\"], [\"insert\", true]]" =
    .error b! "invalid format at index 1: invalid element at index 1: boolean and null values are not supported in texted JSON" := by decide +kernel

example : parseJsonString b! "[[[\"point\"]]]" =
    .error b! "invalid format at index 0: first element of array must be string, got []interface {}" := by decide +kernel

/-! ### How Go prints a value -/

theorem bytesLess_iff : ∀ a b : Bytes, bytesLess a b = true ↔ a < b
  | [], [] => by simp [bytesLess]
  | [], y :: ys => by simp [bytesLess]
  | x :: xs, [] => by simp [bytesLess]
  | x :: xs, y :: ys => by
    rw [bytesLess, List.cons_lt_cons_iff, ← bytesLess_iff xs ys]
    by_cases h1 : x < y
    · simp [h1]
    · rw [if_neg h1]
      by_cases h2 : y < x
      · rw [if_pos h2]
        have : x ≠ y := fun h => by subst h; exact h1 h2
        simp [h1, this]
      · rw [if_neg h2]
        have : x = y := UInt8.le_antisymm (UInt8.not_lt.1 h2) (UInt8.not_lt.1 h1)
        simp [h1, this]

theorem spaced_eq : ∀ l : List Bytes, spaced l = List.intercalate b! " " l
  | [] => rfl
  | [x] => by simp [spaced, List.intercalate, List.intersperse]
  | x :: y :: r => by
    rw [spaced, spaced_eq (y :: r)]
    simp [List.intercalate, List.intersperse]

/-- The map of decoded values. -/
def putJson (k : Bytes) (j : Json) : List (Bytes × Json) → List (Bytes × Json)
  | [] => [(k, j)]
  | (k', j') :: r => if bytesLess k k' then (k, j) :: (k', j') :: r else if k = k' then (k, j) :: r else (k', j') :: putJson k j r

theorem putField_map (k : Bytes) (j : Json) (m : List (Bytes × Json)) :
    putField k j.verb (m.map fun p => (p.1, p.2.verb)) = (putJson k j m).map fun p => (p.1, p.2.verb) := by
  induction m with
  | nil => rfl
  | cons p m ih =>
    simp only [List.map_cons, putField, putJson]
    split
    · rfl
    · split
      · rfl
      · simp only [List.map_cons, ih]

theorem verbFields_map (fs m : List (Bytes × Json)) :
    Json.verbFields (m.map fun p => (p.1, p.2.verb)) fs = (fs.foldl (fun m p => putJson p.1 p.2 m) m).map fun p => (p.1, p.2.verb) := by
  induction fs generalizing m with
  | nil => rfl
  | cons p fs ih => rw [Json.verbFields, putField_map, ih]; rfl

/-- The names ascend. -/
def Ascending (m : List (Bytes × Json)) : Prop := m.Pairwise fun p q => p.1 < q.1

theorem mem_putJson (k : Bytes) (j : Json) : ∀ (m : List (Bytes × Json)), Ascending m → ∀ q, q ∈ putJson k j m ↔ q = (k, j) ∨ q.1 ≠ k ∧ q ∈ m
  | [], _, q => by simp [putJson]
  | (k', j') :: m, h, q => by
    have hm := (List.pairwise_cons.1 h)
    rw [putJson]
    split
    · rename_i hl
      rw [bytesLess_iff] at hl
      rw [List.mem_cons]
      constructor
      · rintro (h | h)
        · exact .inl h
        · refine .inr ⟨fun hk => ?_, h⟩
          rcases List.mem_cons.1 h with rfl | h
          · exact List.lt_irrefl _ (hk ▸ hl)
          · exact List.lt_irrefl _ (List.lt_trans hl (hk ▸ hm.1 q h))
      · rintro (h | ⟨_, h⟩)
        · exact .inl h
        · exact .inr h
    · split
      · rename_i hk
        subst hk
        rw [List.mem_cons]
        constructor
        · rintro (h | h)
          · exact .inl h
          · exact .inr ⟨fun hk => List.lt_irrefl _ (hk ▸ hm.1 q h), List.mem_cons_of_mem _ h⟩
        · rintro (h | ⟨h1, h⟩)
          · exact .inl h
          · rcases List.mem_cons.1 h with rfl | h
            · exact absurd rfl h1
            · exact .inr h
      · rename_i hk
        rw [List.mem_cons, mem_putJson k j m hm.2 q, List.mem_cons]
        constructor
        · rintro (h | h | ⟨h1, h2⟩)
          · exact .inr ⟨by rw [h]; exact fun h => hk h.symm, .inl h⟩
          · exact .inl h
          · exact .inr ⟨h1, .inr h2⟩
        · rintro (h | ⟨h1, h | h⟩)
          · exact .inr (.inl h)
          · exact .inl h
          · exact .inr (.inr ⟨h1, h⟩)

theorem ascending_putJson (k : Bytes) (j : Json) : ∀ (m : List (Bytes × Json)), Ascending m → Ascending (putJson k j m)
  | [], _ => List.pairwise_singleton ..
  | (k', j') :: m, h => by
    have hm := (List.pairwise_cons.1 h)
    rw [putJson]
    split
    · rename_i hl
      rw [bytesLess_iff] at hl
      refine List.pairwise_cons.2 ⟨fun q hq => ?_, h⟩
      rcases List.mem_cons.1 hq with rfl | hq
      · exact hl
      · exact List.lt_trans hl (hm.1 q hq)
    · split
      · rename_i hk
        subst hk
        exact List.pairwise_cons.2 ⟨hm.1, hm.2⟩
      · rename_i hl hk
        rw [bytesLess_iff] at hl
        refine List.pairwise_cons.2 ⟨fun q hq => ?_, ascending_putJson k j m hm.2⟩
        rcases (mem_putJson k j m hm.2 q).1 hq with rfl | ⟨_, hq⟩
        · by_cases h : k' < k
          · exact h
          · exact absurd (List.le_antisymm (List.not_lt.1 h) (List.not_lt.1 hl)) hk
        · exact hm.1 q hq

theorem fields_fold (fs : List (Bytes × Json)) : ∀ m, Ascending m → Ascending (fs.foldl (fun m p => putJson p.1 p.2 m) m) ∧
    ∀ k j, (k, j) ∈ fs.foldl (fun m p => putJson p.1 p.2 m) m ↔ LastField fs k j ∨ (∀ p ∈ fs, p.1 ≠ k) ∧ (k, j) ∈ m := by
  induction fs with
  | nil =>
    intro m hm
    refine ⟨hm, fun k j => ?_⟩
    simp [LastField]
  | cons p fs ih =>
    intro m hm
    obtain ⟨h1, h2⟩ := ih _ (ascending_putJson p.1 p.2 m hm)
    refine ⟨h1, fun k j => ?_⟩
    rw [List.foldl_cons, h2, mem_putJson _ _ _ hm]
    constructor
    · rintro (⟨pre, post, rfl, h⟩ | ⟨h, hp | ⟨hk, hmem⟩⟩)
      · exact .inl ⟨p :: pre, post, rfl, h⟩
      · exact .inl ⟨[], fs, by rw [hp]; rfl, h⟩
      · refine .inr ⟨fun q hq => ?_, hmem⟩
        rcases List.mem_cons.1 hq with rfl | hq
        · exact fun h => hk h.symm
        · exact h q hq
    · rintro (⟨pre, post, he, h⟩ | ⟨h, hmem⟩)
      · cases pre with
        | nil =>
          injection he with e1 e2
          subst e2
          exact .inr ⟨h, .inl e1.symm⟩
        | cons q pre =>
          injection he with e1 e2
          exact .inl ⟨pre, post, e2, h⟩
      · exact .inr ⟨fun q hq => h q (List.mem_cons_of_mem _ hq), .inr ⟨fun hk => h p (List.mem_cons_self ..) hk.symm, hmem⟩⟩

theorem ascending_ext : ∀ (a b : List (Bytes × Json)), Ascending a → Ascending b → (∀ q, q ∈ a ↔ q ∈ b) → a = b
  | [], [], _, _, _ => rfl
  | [], q :: b, _, _, h => absurd ((h q).2 (List.mem_cons_self ..)) (by simp)
  | p :: a, [], _, _, h => absurd ((h p).1 (List.mem_cons_self ..)) (by simp)
  | p :: a, q :: b, ha, hb, h => by
    have ha' := List.pairwise_cons.1 ha
    have hb' := List.pairwise_cons.1 hb
    have hpq : p = q := by
      rcases List.mem_cons.1 ((h p).1 (List.mem_cons_self ..)) with h1 | h1
      · exact h1
      rcases List.mem_cons.1 ((h q).2 (List.mem_cons_self ..)) with h2 | h2
      · exact h2.symm
      · exact absurd (List.lt_trans (ha'.1 q h2) (hb'.1 p h1)) (List.lt_irrefl _)
    subst hpq
    rw [ascending_ext a b ha'.2 hb'.2]
    intro r
    constructor
    · intro hr
      rcases List.mem_cons.1 ((h r).1 (List.mem_cons_of_mem _ hr)) with h1 | h1
      · subst h1; exact absurd (ha'.1 _ hr) (List.lt_irrefl _)
      · exact h1
    · intro hr
      rcases List.mem_cons.1 ((h r).2 (List.mem_cons_of_mem _ hr)) with h1 | h1
      · subst h1; exact absurd (hb'.1 _ hr) (List.lt_irrefl _)
      · exact h1

theorem verbs_eq : ∀ l : List Json, Json.verbs l = l.map Json.verb
  | [] => rfl
  | j :: l => by rw [Json.verbs, verbs_eq l]; rfl

theorem verbAll_iff (l : List Json) (ih : ∀ j ∈ l, ∀ t, Verb j t ↔ t = j.verb) : ∀ ts, VerbAll l ts ↔ ts = l.map Json.verb := by
  induction l with
  | nil => exact fun ts => ⟨fun h => by cases h; rfl, fun h => by subst h; exact .nil⟩
  | cons j l ihl =>
    have ihl := ihl fun j hj => ih j (List.mem_cons_of_mem _ hj)
    have ihj := ih j (List.mem_cons_self ..)
    intro ts
    constructor
    · intro h
      cases h with
      | cons h1 h2 => rw [(ihj _).1 h1, (ihl _).1 h2]; rfl
    · intro h; subst h
      exact .cons ((ihj _).2 rfl) ((ihl _).2 rfl)

theorem verbFields_iff (l : List (Bytes × Json)) (ih : ∀ p ∈ l, ∀ t, Verb p.2 t ↔ t = p.2.verb) :
    ∀ ts, VerbFields l ts ↔ ts = l.map fun p => p.1 ++ b! ":" ++ p.2.verb := by
  induction l with
  | nil => exact fun ts => ⟨fun h => by cases h; rfl, fun h => by subst h; exact .nil⟩
  | cons j l ihl =>
    have ihl := ihl fun j hj => ih j (List.mem_cons_of_mem _ hj)
    have ihj := ih j (List.mem_cons_self ..)
    intro ts
    constructor
    · intro h
      cases h with
      | cons h1 h2 => rw [(ihj _).1 h1, (ihl _).1 h2]; rfl
    · intro h; subst h
      exact .cons ((ihj _).2 rfl) ((ihl _).2 rfl)

theorem verb_iff (n : Nat) : ∀ (j : Json) (t : Bytes), sizeOf j < n → (Verb j t ↔ t = j.verb) := by
  induction n with
  | zero => intro j t h; omega
  | succ n ih =>
    intro j t hn
    cases j with
    | null => exact ⟨fun h => by cases h; rfl, fun h => by subst h; exact .null⟩
    | bool b => cases b <;> exact ⟨fun h => by cases h; rfl, fun h => by subst h; constructor⟩
    | num x => exact ⟨fun h => by cases h; rfl, fun h => by subst h; exact .num⟩
    | str s => exact ⟨fun h => by cases h; rfl, fun h => by subst h; exact .str⟩
    | arr l =>
      have hl : ∀ j ∈ l, ∀ t, Verb j t ↔ t = j.verb := fun j hj t => ih j t (by
        have := List.sizeOf_lt_of_mem hj
        simp only [Json.arr.sizeOf_spec] at hn
        omega)
      have he : (Json.arr l).verb = b! "[" ++ List.intercalate b! " " (l.map Json.verb) ++ b! "]" := by rw [Json.verb, verbs_eq, spaced_eq]
      rw [he]
      constructor
      · intro h
        cases h with
        | arr h => rw [(verbAll_iff l hl _).1 h]
      · intro h; subst h; exact .arr ((verbAll_iff l hl _).2 rfl)
    | obj f =>
      obtain ⟨h1, h2⟩ := fields_fold f [] (List.Pairwise.nil)
      have hfold := verbFields_map f []
      generalize f.foldl (fun m p => putJson p.1 p.2 m) [] = ps at h1 h2 hfold
      have h2' : ∀ k j, (k, j) ∈ ps ↔ LastField f k j := fun k j => by rw [h2]; simp
      have hl : ∀ p ∈ ps, ∀ t, Verb p.2 t ↔ t = p.2.verb := fun p hp t => ih p.2 t (by
        obtain ⟨pre, post, he, _⟩ := (h2' p.1 p.2).1 hp
        have hm : p ∈ f := by rw [he]; simp
        have := List.sizeOf_lt_of_mem hm
        have h3 : sizeOf p = 1 + sizeOf p.1 + sizeOf p.2 := by cases p; rfl
        simp only [Json.obj.sizeOf_spec] at hn
        omega)
      have he : (Json.obj f).verb = b! "map[" ++ List.intercalate b! " " (ps.map fun p => p.1 ++ b! ":" ++ p.2.verb) ++ b! "]" := by
        rw [Json.verb, spaced_eq, show Json.verbFields [] f = ps.map fun p => (p.1, p.2.verb) from hfold, List.map_map]
        rfl
      rw [he]
      constructor
      · intro h
        cases h with
        | @obj _ ps' ts g1 g2 g3 =>
          have : ps' = ps := ascending_ext ps' ps g1 h1 fun q => by rw [g2 q.1 q.2, h2' q.1 q.2]
          subst this
          rw [(verbFields_iff _ hl _).1 g3]
      · intro h; subst h
        exact .obj h1 h2' ((verbFields_iff _ hl _).2 rfl)

/-! ### `texted parse` -/

theorem convertItems_error (l : List Json) : ∀ (i : Nat) (e : Bytes), convertItems i l = .error e ↔
    ∃ good j rest e', l = good ++ j :: rest ∧ ArgTrees good ∧ convertItem j = .error e' ∧
      e = b! "error converting array element " ++ natDec (i + good.length) ++ b! ": " ++ e' := by
  induction l with
  | nil => intro i e; simp [convertItems]
  | cons x l ih =>
    intro i e
    rw [convertItems]
    cases hx : convertItem x with
    | error e' =>
      dsimp only
      constructor
      · intro h; cases h; exact ⟨[], x, l, e', rfl, .nil, hx, rfl⟩
      · rintro ⟨good, j, rest, e'', h1, h2, h3, h4⟩
        cases good with
        | nil => cases h1; rw [hx] at h3; cases h3; rw [h4]; rfl
        | cons g good =>
          cases h1
          obtain ⟨vs, h2⟩ := (argTrees_items _ 1).1 h2
          rw [convertItems, hx] at h2; cases h2
    | ok v =>
      dsimp only
      refine Iff.trans (b := convertItems (i + 1) l = .error e) (by cases convertItems (i + 1) l <;> simp) ((ih _ _).trans ?_)
      constructor
      · rintro ⟨good, j, rest, e', h1, h2, h3, h4⟩
        refine ⟨x :: good, j, rest, e', by rw [h1]; rfl, argTrees_cons ((validate_item x).2 ⟨v, hx⟩) h2, h3, ?_⟩
        rw [h4, List.length_cons, show i + 1 + good.length = i + (good.length + 1) by omega]
      · rintro ⟨good, j, rest, e', h1, h2, h3, h4⟩
        cases good with
        | nil => cases h1; rw [hx] at h3; cases h3
        | cons g good =>
          cases h1
          have h2' : ArgTrees good := by
            cases h2 with
            | str _ _ h => exact h
            | num _ _ h => exact h
            | cmd _ _ _ h => exact h
          refine ⟨good, j, rest, e', rfl, h2', h3, ?_⟩
          rw [h4, List.length_cons, show i + 1 + good.length = i + (good.length + 1) by omega]

theorem convert_wrong (n : Nat) : ∀ (j : Json) (e : Bytes), sizeOf j < n → (convertItem j = .error e ↔ WrongArg j e) := by
  induction n with
  | zero => intro j e h; omega
  | succ n ih =>
    intro j e hn
    cases j with
    | null => exact ⟨fun h => by cases h; exact .null, fun h => by cases h; rfl⟩
    | bool b => exact ⟨fun h => by cases h; exact .bool, fun h => by cases h; rfl⟩
    | obj f =>
      have hv : ∀ t, Verb (.obj f) t ↔ t = (Json.obj f).verb := fun t => verb_iff _ _ _ (Nat.lt_succ_self _)
      rw [convertItem]
      constructor
      · intro h; cases h; exact .obj ((hv _).2 rfl)
      · intro h
        cases h with
        | obj h => rw [(hv _).1 h]; rfl
    | str s => exact ⟨fun h => (nomatch h), fun h => (nomatch h)⟩
    | num x => exact ⟨fun h => (nomatch h), fun h => (nomatch h)⟩
    | arr l =>
      cases l with
      | nil => exact ⟨fun h => (nomatch h), fun h => (nomatch h)⟩
      | cons x l =>
        by_cases hx : ∃ s, x = .str s
        · obtain ⟨s, rfl⟩ := hx
          rw [convertItem, convertArray]
          refine Iff.trans (b := convertItems 1 l = .error e) (by cases convertItems 1 l <;> simp) ?_
          rw [convertItems_error]
          constructor
          · rintro ⟨good, j, rest, e', rfl, h2, h3, rfl⟩
            rw [show 1 + good.length = good.length + 1 by omega]
            refine .inside h2 ((ih j e' ?_).1 h3)
            have : j ∈ good ++ j :: rest := by simp
            have := List.sizeOf_lt_of_mem this
            simp only [Json.arr.sizeOf_spec, List.cons.sizeOf_spec] at hn
            omega
          · intro h
            cases h with
            | head hk => exact absurd rfl (((kind_iff _ _).1 hk).1 s)
            | @inside name good j rest e h1 h2 =>
              refine ⟨good, j, rest, e, rfl, h1, (ih j e ?_).2 h2, by rw [show 1 + good.length = good.length + 1 by omega]⟩
              have : j ∈ good ++ j :: rest := by simp
              have := List.sizeOf_lt_of_mem this
              simp only [Json.arr.sizeOf_spec, List.cons.sizeOf_spec] at hn
              omega
        · have hx' : ∀ s, x ≠ .str s := fun s h => hx ⟨s, h⟩
          have hv : convertItem (.arr (x :: l)) = .error (b! "first element of JSON array must be a string (symbol), got " ++ x.typeName) := by
            cases x <;> first | rfl | exact absurd rfl (hx' _)
          rw [hv]
          constructor
          · intro h; cases h; exact .head ((kind_iff _ _).2 ⟨hx', rfl⟩)
          · intro h
            cases h with
            | head hk => rw [((kind_iff _ _).1 hk).2]
            | inside => exact absurd rfl (hx' _)

theorem convertValue_wrong (j : Json) (e : Bytes) : convertValue j = .error e ↔ WrongEntry j e := by
  cases j with
  | null => exact ⟨fun h => by cases h; exact .null, fun h => by cases h; rfl⟩
  | bool b => exact ⟨fun h => by cases h; exact .bool, fun h => by cases h; rfl⟩
  | obj f => exact ⟨fun h => by cases h; exact .obj, fun h => by cases h; rfl⟩
  | str s => exact ⟨fun h => (nomatch h), fun h => (nomatch h)⟩
  | num x => exact ⟨fun h => (nomatch h), fun h => (nomatch h)⟩
  | arr l =>
    have h := convert_wrong (sizeOf (Json.arr l) + 1) (.arr l) e (Nat.lt_succ_self _)
    rw [convertItem] at h
    rw [convertValue, h]
    exact ⟨fun h => .arr h, fun h => by cases h; assumption⟩

theorem startsWith_iff (s : Bytes) (j : Json) (r : Bytes) : StartsWith s j r ↔ jsonOne s = some (j, r) := by
  rw [jsonOne_iff]
  rfl

theorem jws_nil_iff (s : Bytes) : jws s = [] ↔ Spaces s := by
  constructor
  · intro h
    obtain ⟨w, h1, h2⟩ := jws_split s
    rw [h, List.append_nil] at h2
    rwa [h2]
  · intro h
    have := jws_spaces h []
    rwa [List.append_nil] at this

theorem stream_error : ∀ (f : Nat) (s e : Bytes), s.length < f → (parseJsonStream f s = .error e ↔ WrongStream s e)
  | 0, s, e, h => by omega
  | f + 1, s, e, hf => by
    rw [parseJsonStream]
    by_cases hw : jws s = []
    · rw [if_pos hw]
      have hsp := (jws_nil_iff s).1 hw
      have hno : ∀ j r, ¬ StartsWith s j r := fun j r h => by
        rw [startsWith_iff, jsonOne, hw] at h
        cases h
      constructor
      · intro h; cases h
      · intro h
        cases h with
        | text h => exact absurd hsp h
        | here h => exact absurd h (hno _ _)
        | later h => exact absurd h (hno _ _)
    · rw [if_neg hw]
      have hsp : ¬ Spaces s := fun h => hw ((jws_nil_iff s).2 h)
      cases hj : jsonOne s with
      | none =>
        have hno : ∀ j r, ¬ StartsWith s j r := fun j r h => by rw [startsWith_iff, hj] at h; cases h
        constructor
        · intro h; cases h; exact .text hsp hno
        · intro h
          cases h with
          | text => rfl
          | here h => exact absurd h (hno _ _)
          | later h => exact absurd h (hno _ _)
      | some p =>
        obtain ⟨j, r⟩ := p
        dsimp only
        have hs := (startsWith_iff s j r).2 hj
        have huniq : ∀ j' r', StartsWith s j' r' → j' = j ∧ r' = r := fun j' r' h => by
          rw [startsWith_iff, hj] at h; cases h; exact ⟨rfl, rfl⟩
        have hlen := jsonOne_length hj
        cases hv : convertValue j with
        | error e' =>
          constructor
          · intro h; cases h; exact .here hs ((convertValue_wrong _ _).1 hv)
          · intro h
            cases h with
            | text _ h => exact absurd hs (h _ _)
            | here h1 h2 =>
              obtain ⟨rfl, rfl⟩ := huniq _ _ h1
              rw [(convertValue_wrong _ _).2 h2] at hv
              cases hv; rfl
            | later h1 h2 =>
              obtain ⟨rfl, rfl⟩ := huniq _ _ h1
              rw [((entries_cons _ _ _ _).1 h2).1] at hv; cases hv
        | ok v =>
          refine Iff.trans (b := parseJsonStream f r = .error e) (by cases parseJsonStream f r <;> simp) ((stream_error f r e (by omega)).trans ?_)
          constructor
          · intro h; exact .later hs ((entries_cons _ _ _ _).2 ⟨hv, .nil⟩) h
          · intro h
            cases h with
            | text _ h => exact absurd hs (h _ _)
            | here h1 h2 =>
              obtain ⟨rfl, rfl⟩ := huniq _ _ h1
              rw [(convertValue_wrong _ _).2 h2] at hv; cases hv
            | later h1 _ h3 =>
              obtain ⟨rfl, rfl⟩ := huniq _ _ h1
              exact h3

/-- C67. Exactly why `texted parse --input-format json` refuses a text, for every byte string. -/
theorem C67_json_refused (s e : Bytes) : parseJsonReader s = .error e ↔ WrongStream s e := stream_error _ s e (Nat.lt_succ_self _)

example : parseJsonReader b! "\"a\" [\"f\", 1, {\"k\": 2, \"b\": [null, \"x\"], \"k\": true}]" = .error
    b! "error converting array element 2: unsupported JSON type: map[string]interface {} (value: map[b:[<nil> x] k:true])" := by decide +kernel

end Texted
